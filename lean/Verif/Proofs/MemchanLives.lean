import Verif.Proofs.Memchan5

/-!
# memchan: pairs that are dialled again

The invariant of executions with one life per pair is about the log since the last time the pair was dialled.
-/

set_option autoImplicit false

namespace Webwire.Mem

/-- The same with another log. -/
def G.relog (g : G) (l : List Ev) : G := { g with log := l }

section
variable (g : G) (l : List Ev) (p : Nat) (x : Side)
@[simp] theorem sock_relog : (g.relog l).sock p x = g.sock p x := rfl
@[simp] theorem conn_relog : (g.relog l).connected p = g.connected p := rfl
@[simp] theorem listed_relog : (g.relog l).listed p = g.listed p := rfl
@[simp] theorem log_relog : (g.relog l).log = l := rfl
end

/-- What a step does does not depend on the log. -/
theorem Acts.relog {g g' : G} {pc : PC} {pcs : List PC} (h : Acts g pc g' pcs) (l : List Ev) :
    (g'.log = g.log ∧ Acts (g.relog l) pc (g'.relog l) pcs) ∨
    ∃ e, g'.log = g.log ++ [e] ∧ Acts (g.relog l) pc (g'.relog (l ++ [e])) pcs := by
  cases h <;> first
    | exact .inl ⟨rfl, by constructor <;> assumption⟩
    | exact .inr ⟨_, rfl, by constructor <;> assumption⟩

/-! ## Pieces of the log -/

theorem lives_ev (p : Nat) (log : List Ev) (e : Ev) : lives p (log ++ [e]) =
    if e = .dialEnd p true then lives p log ++ [[]] else (lives p log).dropLast ++ [lastLife p log ++ [e]] := by
  simp [lives, lastLife]

theorem lives_ne (p : Nat) (log : List Ev) : lives p log ≠ [] := by
  rcases List.eq_nil_or_concat log with rfl | ⟨l, e, rfl⟩
  · simp [lives]
  · rw [List.concat_eq_append, lives_ev]; split <;> simp

theorem lastLife_mem (p : Nat) (log : List Ev) : lastLife p log ∈ lives p log := by
  rw [lastLife, List.getLast?_eq_some_getLast (lives_ne p log)]
  exact List.getLast_mem _

theorem lastLife_ev (p : Nat) (log : List Ev) (e : Ev) : lastLife p (log ++ [e]) =
    if e = .dialEnd p true then [] else lastLife p log ++ [e] := by
  rw [lastLife, lives_ev]; split <;> simp

theorem lastDial_ev (p : Nat) (log : List Ev) (e : Ev) : lastDial p (log ++ [e]) = (e.dialOf p).or (lastDial p log) := by
  rw [lastDial, filterMap_ev]; cases h : e.dialOf p <;> simp [lastDial]

/-- The event is about that pair. -/
def Ev.about (p : Nat) : Ev → Bool
  | .flushed q .. | .copied q .. | .writeEnd q .. | .readEnd q .. | .dialEnd q _ | .closeEnd q _ => decide (q = p)
  | _ => false

/-- What the pair is left with, or found in, when nobody uses it. -/
structure Rest (g : G) (l : List Ev) (ts : List PC) (p : Nat) : Prop where
  quiet : ∀ x, flushes p x l = [] ∧ copies p x l = [] ∧ oks p x l = []
  sock : ∀ x, (g.sock p x).recv = .absent ∧ (g.sock p x).parked = false ∧ (g.sock p x).len = 0
  conn : ∀ a ∈ ts, a = .d3 p ∨ a = .d4 p ∨ a = .d5 p ∨ a = .d6 p ∨ a = .d7 p → g.connected p = true
  stage : g.connected p = true → .d3 p ∈ ts ∨ ((g.sock p .clt).chan.buf = none ∧
    (.d4 p ∈ ts ∨ (g.sock p .srv).chan.buf = none))

/-- The invariant; `l` is the part of the log that matters. -/
structure LInv (g : G) (l : List Ev) (ts : List PC) : Prop where
  locks : ∀ p x, Locks g ts p x
  life : ∀ p, Life (g.relog l) ts p
  core : ∀ p x, Ev.dialEnd p true ∈ l → CoreOf (g.relog l) ts p x
  rest : ∀ p, Ev.dialEnd p true ∉ l → Rest g l ts p
  listed : ∀ p, g.listed p = true → g.connected p = true ∨ ∃ a ∈ ts, a.closing p = true
  last : ∀ p, (∀ a ∈ ts, a.dials p = false) → (Ev.dialEnd p true ∈ l ↔ lastDial p g.log = some true)
  never : ∀ p, Ev.dialEnd p true ∈ l → Ev.dialEnd p true ∈ g.log
  piece : ∀ p x, Ev.dialEnd p true ∈ l → flushes p x l = flushes p x (lastLife p g.log) ∧
    copies p x l = copies p x (lastLife p g.log) ∧ oks p x l = oks p x (lastLife p g.log)
  done : ∀ p x, ∀ m ∈ lives p g.log, Delivered p x m

section
variable {g g' : G} {pc : PC} {pcs rest : List PC} {p : Nat} {x : Side} {l : List Ev}

/-- A step that does not use the pair. -/
theorem Acts.away (ha : Acts g pc g' pcs) (p : Nat) (hu : pc.uses p = false) :
    (pc ≠ .d3 p → ∀ x, x = .clt → g'.sock p x = g.sock p x) ∧
    (pc ≠ .d4 p → ∀ x, x = .srv → g'.sock p x = g.sock p x) ∧
    (pc ≠ .d2 p → g'.connected p = g.connected p) ∧
    (∀ e, g'.log = g.log ++ [e] → ∀ x, e.flushOf p x = none ∧ e.copyOf p x = none ∧ e.okOf p x = none) := by
  cases ha <;> simp [PC.uses] at hu <;>
    simp [Ev.flushOf, Ev.copyOf, Ev.okOf] <;> grind

/-- How a step changes what concerns dialling. -/
theorem Acts.dialling (ha : Acts g pc g' pcs) (p : Nat) :
    (∀ b ∈ pcs, b = .d3 p → pc = .d2 p) ∧ (∀ b ∈ pcs, b = .d4 p → pc = .d3 p) ∧ (∀ b ∈ pcs, b = .d5 p → pc = .d4 p) ∧
    (∀ b ∈ pcs, b = .d6 p → pc = .d5 p) ∧ (∀ b ∈ pcs, b = .d7 p → pc = .d6 p) ∧
    (pc = .d2 p → (g'.connected p = true ∧ (pcs = [.d3 p] ∨ g.connected p = true))) ∧
    (pc = .d3 p → pcs = [.d4 p] ∧ g' = g.upd p .clt Sock.reset) ∧
    (pc = .d4 p → pcs = [.d5 p] ∧ g' = g.upd p .srv Sock.reset) := by
  cases ha <;> simp <;> grind

theorem Rest.acts (hi : Rest g l (pc :: rest) p) (hu : pc.uses p = false) (hx : Excl (PC.dials p) (pc :: rest))
    (ha : Acts g pc g' pcs) {l' : List Ev} (hl : l' = l ∧ g'.log = g.log ∨ ∃ e, g'.log = g.log ++ [e] ∧ l' = l ++ [e]) :
    Rest g' l' (pcs ++ rest) p := by
  obtain ⟨a1, a2, a3, a4⟩ := ha.away p hu
  obtain ⟨b1, b2, b3, b4, b5, b6, b7, b8⟩ := ha.dialling p
  have hx := (Excl.cons.mp hx).1
  obtain ⟨h1, h2, h3, h4⟩ := hi
  refine ⟨fun x => ?_, fun x => ?_, fun a hm hc => ?_, fun hc => ?_⟩
  · rcases hl with ⟨rfl, _⟩ | ⟨e, he, rfl⟩
    · exact h1 x
    · have := a4 e he x
      have := h1 x
      simp_all [flushes_ev, copies_ev, oks_ev]
  · cases x
    · by_cases e : pc = .d4 p
      · rw [(b8 e).2]; simpa [Sock.reset, Sock.setChan] using h2 .srv
      · rw [a2 e _ rfl]; exact h2 .srv
    · by_cases e : pc = .d3 p
      · rw [(b7 e).2]; simpa [Sock.reset, Sock.setChan] using h2 .clt
      · rw [a1 e _ rfl]; exact h2 .clt
  · by_cases e : pc = .d2 p
    · exact (b6 e).1
    · rw [a3 e]
      rcases List.mem_append.mp hm with hm | hm
      · exact h3 pc (by simp) (by grind)
      · exact h3 a (by simp [hm]) hc
  · by_cases e2 : pc = .d2 p
    · rcases (b6 e2).2 with h | h
      · exact .inl (by simp [h])
      · have hs := h4 h
        have hn : Sock.chan (g'.sock p .clt) = (g.sock p .clt).chan := by rw [a1 (by simp [e2]) _ rfl]
        have hn' : Sock.chan (g'.sock p .srv) = (g.sock p .srv).chan := by rw [a2 (by simp [e2]) _ rfl]
        rw [hn, hn']
        simp [e2] at hs
        grind
    · rw [a3 e2] at hc
      have hs := h4 hc
      by_cases e3 : pc = .d3 p
      · have := b7 e3
        refine .inr ⟨by simp [this.2, Sock.chan, Sock.reset, Sock.setChan], .inl (by simp [this.1])⟩
      · by_cases e4 : pc = .d4 p
        · have := b8 e4
          have hd3 : .d3 p ∉ rest := fun hm => by
            have := hx (by simp [e4, PC.dials]) _ hm
            simp [PC.dials] at this
          refine .inr ⟨?_, .inr (by simp [this.2, Sock.chan, Sock.reset, Sock.setChan])⟩
          rw [a1 e3 _ rfl]
          grind
        · rw [a1 e3 _ rfl, a2 e4 _ rfl]
          simp only [List.mem_cons, List.mem_append] at hs ⊢
          grind

/-- The pair has been dialled. -/
theorem Rest.core (hi : Rest g l (.d7 p :: rest) p) (hf : Life (g.relog l) (.d7 p :: rest) p) (hg : Acts g (.d7 p) g' pcs)
    (x : Side) : CoreOf (g'.relog (l ++ [.dialEnd p true])) (pcs ++ rest) p x := by
  have e1 := the_life (P := PC.wr p x) hf (by simp [PC.dials]) (fun a => PC.wr_uses)
  have e2 := the_life (P := PC.fin p x) hf (by simp [PC.dials]) (fun a => PC.fin_uses)
  have e3 := the_life (P := PC.rd p x.other) hf (by simp [PC.dials]) (fun a => PC.rd_uses)
  have hc := hi.conn _ (by simp) (.inr (.inr (.inr (.inr rfl))))
  have hx := (Excl.cons.mp hf.excl).1 (by simp [PC.dials])
  have h3 : .d3 p ∉ rest := fun hm => by have := hx _ hm; simp [PC.dials] at this
  have h4 : .d4 p ∉ rest := fun hm => by have := hx _ hm; simp [PC.dials] at this
  have hb : ∀ y, (g.sock p y).chan.buf = none := by
    have := hi.stage hc
    simp [h3, h4] at this
    intro y; cases y
    · exact this.2
    · exact this.1
  cases hg
  unfold CoreOf
  simp only [List.nil_append, e1, e2, e3]
  obtain ⟨q1, q2, q3⟩ := hi.quiet x
  have q4 := (hi.quiet x.other).2.1
  have s1 := hi.sock x
  have s2 := hi.sock x.other
  have b2 := hb x.other
  constructor <;> simp_all [flushes_ev, copies_ev, oks_ev, Ev.flushOf, Ev.copyOf, Ev.okOf]

theorem Acts.lists (ha : Acts g pc g' pcs) (p : Nat) :
    (g'.listed p = true → g.listed p = true ∧ (g.connected p = true → g'.connected p = true ∨ ∃ b ∈ pcs, b.closing p = true) ∧
      (pc.closing p = true → ∃ b ∈ pcs, b.closing p = true) ∨ pc = .d7 p) ∧
    (∀ e, g'.log = g.log ++ [e] → (e.dialOf p = none ∧ (pc.dials p = true → ∃ b ∈ pcs, b.dials p = true)) ∨
      pc.dials p = true ∧ pcs = [] ∧ (e = .dialEnd p true ∧ pc = .d7 p ∨ e = .dialEnd p false)) ∧
    (g'.log = g.log → pc.dials p = true → ∃ b ∈ pcs, b.dials p = true) := by
  cases ha <;> simp [PC.closing, PC.dials, Ev.dialOf] <;> grind

theorem dialOf_none {e : Ev} (h : e.dialOf p = none) (b : Bool) : e ≠ .dialEnd p b := by
  rintro rfl; simp [Ev.dialOf] at h

theorem Delivered.congr {m m' : List Ev} (h : Delivered p x m) (h1 : flushes p x m' = flushes p x m)
    (h2 : copies p x.other m' = copies p x.other m) (h3 : oks p x m' = oks p x m) : Delivered p x m' := by
  unfold Delivered at *
  rw [h1, h2, h3]; exact h

theorem LInv.acts (h : LInv g l (pc :: rest)) (ha : Acts g pc g' pcs) :
    ∃ l', (l' = l ∧ g'.log = g.log ∨ ∃ e, g'.log = g.log ++ [e] ∧ l' = l ++ [e]) ∧
      Acts (g.relog l) pc (g'.relog l') pcs ∧ LInv g' l' (pcs ++ rest) := by
  have hstep : ∃ l', (l' = l ∧ g'.log = g.log ∨ ∃ e, g'.log = g.log ++ [e] ∧ l' = l ++ [e]) ∧
      Acts (g.relog l) pc (g'.relog l') pcs := by
    rcases ha.relog l with ⟨h1, h2⟩ | ⟨e, h1, h2⟩
    · exact ⟨l, .inl ⟨rfl, h1⟩, h2⟩
    · exact ⟨l ++ [e], .inr ⟨e, h1, rfl⟩, h2⟩
  obtain ⟨l', hl, hr⟩ := hstep
  have hlife : ∀ p, Life (g'.relog l') (pcs ++ rest) p := fun p => (h.life p).acts hr
  -- when a pair starts to live
  have hnew : ∀ p, Ev.dialEnd p true ∈ l' → Ev.dialEnd p true ∈ l ∨
      (pc = .d7 p ∧ Ev.dialEnd p true ∉ l ∧ l' = l ++ [.dialEnd p true] ∧ g'.log = g.log ++ [.dialEnd p true]) := by
    intro p hm
    rcases hl with ⟨rfl, _⟩ | ⟨e, he, rfl⟩
    · exact .inl hm
    · rcases List.mem_append.mp hm with hm | hm
      · exact .inl hm
      · have he' : e = .dialEnd p true := by simpa [eq_comm] using hm
        subst he'
        rcases (ha.lists p).2.1 _ he with h' | ⟨hd, _, h' | h'⟩
        · simp [Ev.dialOf] at h'
        · exact .inr ⟨h'.2, (h.life p).dials pc (by simp) hd, rfl, he⟩
        · simp at h'
  have hkeep : ∀ p, Ev.dialEnd p true ∈ l → Ev.dialEnd p true ∈ l' := by
    intro p hm
    rcases hl with ⟨rfl, _⟩ | ⟨e, he, rfl⟩
    · exact hm
    · simp [hm]
  have hcore : ∀ p x, Ev.dialEnd p true ∈ l' → CoreOf (g'.relog l') (pcs ++ rest) p x := by
    intro p x hm
    rcases hnew p hm with hm | ⟨rfl, hn, rfl, _⟩
    · have lk : ∀ y, Locks (g.relog l) (pc :: rest) p y := fun y => by
        obtain ⟨h1, h2, h3, h4, h5, h6⟩ := h.locks p y; exact ⟨h1, h2, h3, h4, h5, h6⟩
      exact CoreOf.acts (h.life p) (lk x) (lk x.other) (h.core p x hm) hr
    · exact (h.rest p hn).core (h.life p) ha x
  have hrest : ∀ p, Ev.dialEnd p true ∉ l' → Rest g' l' (pcs ++ rest) p := by
    intro p hn
    have hn' : Ev.dialEnd p true ∉ l := fun hm => hn (hkeep p hm)
    refine (h.rest p hn').acts ?_ (h.life p).excl ha hl
    cases hu : pc.uses p
    · rfl
    · exact absurd ((h.life p).uses pc (by simp) hu) hn'
  have hpiece : ∀ p x, Ev.dialEnd p true ∈ l' → flushes p x l' = flushes p x (lastLife p g'.log) ∧
      copies p x l' = copies p x (lastLife p g'.log) ∧ oks p x l' = oks p x (lastLife p g'.log) := by
    intro p x hm
    rcases hnew p hm with hm0 | ⟨rfl, hn, rfl, hlog⟩
    · have hp := h.piece p x hm0
      rcases hl with ⟨rfl, hlog⟩ | ⟨e, hlog, rfl⟩
      · rw [hlog]; exact hp
      · have hne : e ≠ .dialEnd p true := by
          rintro rfl
          rcases (ha.lists p).2.1 _ hlog with h' | ⟨hd, _⟩
          · simp [Ev.dialOf] at h'
          · exact (h.life p).dials pc (by simp) hd hm0
        rw [hlog, lastLife_ev, if_neg hne]
        simp [flushes_ev, copies_ev, oks_ev, hp]
    · rw [hlog, lastLife_ev, if_pos rfl]
      have := (h.rest p hn).quiet x
      simp [flushes_ev, copies_ev, oks_ev, Ev.flushOf, Ev.copyOf, Ev.okOf, this]
      simp [flushes, copies, oks]
  have hlastd : ∀ p x, Delivered p x (lastLife p g'.log) := by
    intro p x
    by_cases hm : Ev.dialEnd p true ∈ l'
    · have hd := (hcore p x hm).delivered
      simp only [log_relog] at hd
      exact Delivered.congr hd (hpiece p x hm).1.symm (hpiece p x.other hm).2.1.symm (hpiece p x hm).2.2.symm
    · have hn' : Ev.dialEnd p true ∉ l := fun hm' => hm (hkeep p hm')
      have hu : pc.uses p = false := by
        cases hu : pc.uses p
        · rfl
        · exact absurd ((h.life p).uses pc (by simp) hu) hn'
      have hd := h.done p x _ (lastLife_mem p g.log)
      rcases hl with ⟨rfl, hlog⟩ | ⟨e, hlog, rfl⟩
      · rw [hlog]; exact hd
      · rw [hlog, lastLife_ev]
        split
        · simp [Delivered, flushes, copies, oks]
        · have := (ha.away p hu).2.2.2 e hlog
          refine hd.congr ?_ ?_ ?_
          · simp [flushes_ev, (this x).1]
          · simp [copies_ev, (this x.other).2.1]
          · simp [oks_ev, (this x).2.2]
  refine ⟨l', hl, hr, fun p x => (h.locks p x).acts ha, hlife, hcore, hrest, fun p hli => ?_, fun p hd => ?_, fun p hm => ?_,
    hpiece, fun p x m hm => ?_⟩
  · rcases (ha.lists p).1 hli with ⟨h1, h2, h3⟩ | rfl
    · rcases h.listed p h1 with hc | ⟨a, hm, hc⟩
      · rcases h2 hc with hc | ⟨b, hb, hc⟩
        · exact .inl hc
        · exact .inr ⟨b, by simp [hb], hc⟩
      · rcases List.mem_cons.mp hm with rfl | hm
        · obtain ⟨b, hb, hc⟩ := h3 hc
          exact .inr ⟨b, by simp [hb], hc⟩
        · exact .inr ⟨a, by simp [hm], hc⟩
    · left
      have hn := (h.life p).dials (.d7 p) (by simp) (by simp [PC.dials])
      have := (h.rest p hn).conn (.d7 p) (by simp) (.inr (.inr (.inr (.inr rfl))))
      cases ha
      simpa using this
  · have hold : pc.dials p = false → ∀ a ∈ pc :: rest, a.dials p = false := by
      intro hp a hm
      rcases List.mem_cons.mp hm with rfl | hm
      · exact hp
      · exact hd a (by simp [hm])
    rcases hl with ⟨rfl, hlog⟩ | ⟨e, hlog, rfl⟩
    · have hp : pc.dials p = false := by
        cases hp : pc.dials p
        · rfl
        · obtain ⟨b, hb, hbd⟩ := (ha.lists p).2.2 hlog hp
          simp [hd b (by simp [hb])] at hbd
      rw [hlog]
      exact h.last p (hold hp)
    · rw [hlog, lastDial_ev]
      rcases (ha.lists p).2.1 _ hlog with ⟨h1, h2⟩ | ⟨h1, h2, h3⟩
      · have hp : pc.dials p = false := by
          cases hp : pc.dials p
          · rfl
          · obtain ⟨b, hb, hbd⟩ := h2 hp
            simp [hd b (by simp [hb])] at hbd
        have := dialOf_none h1 true
        simp [h1, h.last p (hold hp), this.symm]
      · have hn := (h.life p).dials pc (by simp) h1
        simp only [log_relog] at hn
        rcases h3 with ⟨rfl, _⟩ | rfl <;> simp [Ev.dialOf, hn]
  · rcases hnew p hm with hm | ⟨_, _, _, hlog⟩
    · have := h.never p hm
      rcases hl with ⟨_, hlog⟩ | ⟨e, hlog, _⟩ <;> simp [hlog, this]
    · simp [hlog]
  · rcases hl with ⟨_, hlog⟩ | ⟨e, hlog, _⟩
    · rw [hlog] at hm; exact h.done p x m hm
    · have hlast := hlastd p x
      rw [hlog, lives_ev] at hm
      rw [hlog, lastLife_ev] at hlast
      split at hm
      · rename_i he
        rw [if_pos he] at hlast
        rcases List.mem_append.mp hm with hm | hm
        · exact h.done p x m hm
        · simp only [List.mem_singleton] at hm; subst hm; exact hlast
      · rename_i he
        rw [if_neg he] at hlast
        rcases List.mem_append.mp hm with hm | hm
        · exact h.done p x m (List.dropLast_subset _ hm)
        · simp only [List.mem_singleton] at hm; subst hm; exact hlast

theorem Locks.relog (h : Locks g rest p x) (l : List Ev) : Locks (g.relog l) rest p x := by
  obtain ⟨h1, h2, h3, h4, h5, h6⟩ := h; exact ⟨h1, h2, h3, h4, h5, h6⟩

/-! ## Calls -/

theorem Rest.add {a : PC} (h : Rest g l rest p) (h1 : ∀ b, b = .d3 p ∨ b = .d4 p ∨ b = .d5 p ∨ b = .d6 p ∨ b = .d7 p → a ≠ b) :
    Rest g l (a :: rest) p := by
  obtain ⟨g1, g2, g3, g4⟩ := h
  refine ⟨g1, g2, fun b hb hd => ?_, fun hc => ?_⟩
  · rcases List.mem_cons.mp hb with rfl | hb
    · exact absurd rfl (h1 _ hd)
    · exact g3 b hb hd
  · rcases g4 hc with h | ⟨h, h' | h'⟩
    · exact .inl (by simp [h])
    · exact .inr ⟨h, .inl (by simp [h'])⟩
    · exact .inr ⟨h, .inr h'⟩

/-- A new goroutine that does not dial. -/
theorem LInv.add {a : PC} (h : LInv g l rest) (h1 : ∀ p x, a.wr p x = false ∧ a.bf p x = false ∧ a.rd p x = false ∧ a.fin p x = false)
    (h2 : ∀ p, a.uses p = true → Ev.dialEnd p true ∈ l) (h3 : ∀ p, a.closing p = false ∧ a.dials p = false) :
    LInv g l (a :: rest) := by
  refine ⟨fun p x => (h.locks p x).add (h1 p x).1 (h1 p x).2.1 (h1 p x).2.2.1,
    fun p => (h.life p).add (h2 p) (by simp [h3 p]) (h3 p).1,
    fun p x hm => (h.core p x hm).add (h1 p x).1 (h1 p x).2.2.2 (h1 p x.other).2.2.1,
    fun p hm => (h.rest p hm).add ?_, fun p hl => ?_, fun p hd => h.last p fun b hb => hd b (by simp [hb]), h.never, h.piece, h.done⟩
  · rintro b hb rfl
    have := (h3 p).2
    rcases hb with rfl | rfl | rfl | rfl | rfl <;> simp [PC.dials] at this
  · rcases h.listed p hl with h | ⟨b, hb, hc⟩
    · exact .inl h
    · exact .inr ⟨b, by simp [hb], hc⟩

theorem flushes_filter {q : Nat} (hq : q ≠ p) (x : Side) : flushes q x (l.filter fun e => !e.about p) = flushes q x l := by
  rw [flushes, List.filterMap_filter]
  unfold flushes
  congr 1; funext e
  cases e <;> simp [Ev.about, Ev.flushOf] <;> grind

theorem copies_filter {q : Nat} (hq : q ≠ p) (x : Side) : copies q x (l.filter fun e => !e.about p) = copies q x l := by
  rw [copies, List.filterMap_filter]
  unfold copies
  congr 1; funext e
  cases e <;> simp [Ev.about, Ev.copyOf] <;> grind

theorem oks_filter {q : Nat} (hq : q ≠ p) (x : Side) : oks q x (l.filter fun e => !e.about p) = oks q x l := by
  rw [oks, List.filterMap_filter]
  unfold oks
  congr 1; funext e
  cases e
  case writeEnd r _ _ res => cases res <;> simp [Ev.about, Ev.okOf] <;> grind
  all_goals simp [Ev.about, Ev.okOf] <;> grind

theorem filter_nothing (x : Side) : flushes p x (l.filter fun e => !e.about p) = [] ∧
    copies p x (l.filter fun e => !e.about p) = [] ∧ oks p x (l.filter fun e => !e.about p) = [] := by
  simp only [flushes, copies, oks, List.filterMap_eq_nil_iff, List.mem_filter]
  refine ⟨?_, ?_, ?_⟩ <;> rintro e ⟨_, he⟩ <;> cases e <;> simp_all [Ev.about, Ev.flushOf, Ev.copyOf] <;>
    first | rfl | (rename_i r _; cases r <;> simp_all [Ev.okOf])

/-- A closed pair nobody uses may be forgotten. -/
theorem LInv.forget (h : LInv g l rest) (hc : g.connected p = false) (hu : ∀ a ∈ rest, a.uses p = false)
    (hd : ∀ a ∈ rest, a.dials p = false) (hm : Ev.dialEnd p true ∈ l) :
    ∀ l', l' = l.filter (fun e => !e.about p) →
    (∀ q x, Locks g rest q x) ∧ (∀ q, Life (g.relog l') rest q) ∧
    (∀ q x, Ev.dialEnd q true ∈ l' → CoreOf (g.relog l') rest q x) ∧ (∀ q, Ev.dialEnd q true ∉ l' → Rest g l' rest q) ∧
    (∀ q x, Ev.dialEnd q true ∈ l' → flushes q x l' = flushes q x (lastLife q g.log) ∧
      copies q x l' = copies q x (lastLife q g.log) ∧ oks q x l' = oks q x (lastLife q g.log)) ∧
    (∀ q, q ≠ p → (Ev.dialEnd q true ∈ l' ↔ Ev.dialEnd q true ∈ l)) ∧ Ev.dialEnd p true ∉ l' := by
  rintro l' rfl
  have hmem : ∀ q, q ≠ p → (Ev.dialEnd q true ∈ l.filter (fun e => !e.about p) ↔ Ev.dialEnd q true ∈ l) := by
    intro q hq; simp [Ev.about, hq]
  have hnot : Ev.dialEnd p true ∉ l.filter (fun e => !e.about p) := by simp [Ev.about]
  refine ⟨h.locks, fun q => ?_, fun q x hq => ?_, fun q hq => ?_, fun q x hq => ?_, hmem, hnot⟩
  · by_cases hqp : q = p
    · subst hqp
      refine ⟨fun a ha h' => by simp [hu a ha] at h', fun a ha h' => by simp [hd a ha] at h', (h.life q).excl, fun hl => ?_,
        (h.life q).closing⟩
      rcases h.listed q hl with h' | ⟨a, ha, h'⟩
      · simp [hc] at h'
      · simp [hu a ha] at *
        have := PC.closing_uses h'
        simp [hu a ha] at this
    · obtain ⟨a1, a2, a3, a4, a5⟩ := h.life q
      have hm' := hmem q hqp
      simp only [log_relog, listed_relog, conn_relog] at a1 a2 a4 a5
      constructor
      · simp only [log_relog, hm']; exact a1
      · simp only [log_relog, hm']; exact a2
      · exact a3
      · simp only [log_relog, hm']; exact a4
      · exact a5
  · have hqp : q ≠ p := by rintro rfl; exact hnot hq
    refine Core.same (h.core q x ((hmem q hqp).mp hq)) ?_
    have hm' := hmem q hqp
    constructor
    case life => simp only [log_relog, hm']; exact id
    case fl => exact flushes_filter hqp x
    case cp => exact copies_filter hqp x.other
    case ok => exact oks_filter hqp x
    all_goals simp
  · by_cases hqp : q = p
    · subst hqp
      refine ⟨fun x => filter_nothing x, fun x => ?_, fun a ha h' => ?_, fun h' => by simp [hc] at h'⟩
      · have hn : ∀ P : PC → Bool, (∀ a, P a = true → a.uses q = true) → the P rest = none := by
          intro P hP
          rw [the_none]; intro a ha
          cases hpa : P a
          · rfl
          · have := hP a hpa; simp [hu a ha] at this
        have c1 := h.core q x hm
        have c2 := h.core q x.other hm
        unfold CoreOf at c1 c2
        rw [hn _ (fun a => PC.wr_uses), hn _ (fun a => PC.fin_uses), hn _ (fun a => PC.rd_uses)] at c1 c2
        have r := c2.recvW
        have pk := c2.parkedR
        simp only [Side.other_other, sock_relog] at r pk
        refine ⟨?_, ?_, by simpa using c1.idle⟩
        · cases hr : (g.sock q x).recv
          · rfl
          all_goals (obtain ⟨m, hm⟩ := r (by simp [hr]); cases hm)
        · cases hr : (g.sock q x).parked
          · rfl
          · have := (pk hr).1; cases this
      · have := hd a ha
        rcases h' with rfl | rfl | rfl | rfl | rfl <;> simp [PC.dials] at this
    · have hq' : Ev.dialEnd q true ∉ l := fun h' => hq ((hmem q hqp).mpr h')
      obtain ⟨a1, a2, a3, a4⟩ := h.rest q hq'
      refine ⟨fun x => ?_, a2, a3, a4⟩
      rw [flushes_filter hqp, copies_filter hqp, oks_filter hqp]; exact a1 x
  · have hqp : q ≠ p := by rintro rfl; exact hnot hq
    rw [flushes_filter hqp, copies_filter hqp, oks_filter hqp]; exact h.piece q x ((hmem q hqp).mp hq)

theorem LInv.dial (h : LInv g l rest) (hd : ∀ a ∈ rest, a.dials p = false)
    (ho : Ev.dialEnd p true ∉ g.log ∨ g.connected p = false ∧ ∀ a ∈ rest, a.uses p = false) :
    ∃ l', (∀ e, e.about p = false → (e ∈ l' ↔ e ∈ l)) ∧ Ev.dialEnd p true ∉ l' ∧
      (Ev.dialEnd p true ∈ l → g.connected p = false ∧ ∀ e ∈ l', e.about p = false) ∧ (∀ e ∈ l', e ∈ l) ∧
      LInv g l' (.d1 p :: rest) := by
  have key : ∃ l', (∀ q x, Locks g rest q x) ∧ (∀ q, Life (g.relog l') rest q) ∧
      (∀ q x, Ev.dialEnd q true ∈ l' → CoreOf (g.relog l') rest q x) ∧ (∀ q, Ev.dialEnd q true ∉ l' → Rest g l' rest q) ∧
      (∀ q x, Ev.dialEnd q true ∈ l' → flushes q x l' = flushes q x (lastLife q g.log) ∧
        copies q x l' = copies q x (lastLife q g.log) ∧ oks q x l' = oks q x (lastLife q g.log)) ∧
      (∀ q, q ≠ p → (Ev.dialEnd q true ∈ l' ↔ Ev.dialEnd q true ∈ l)) ∧ Ev.dialEnd p true ∉ l' ∧
      (∀ e, e.about p = false → (e ∈ l' ↔ e ∈ l)) ∧
      (Ev.dialEnd p true ∈ l → g.connected p = false ∧ ∀ e ∈ l', e.about p = false) ∧ (∀ e ∈ l', e ∈ l) := by
    by_cases hm : Ev.dialEnd p true ∈ l
    · rcases ho with ho | ⟨ho, hu⟩
      · exact absurd (h.never p hm) ho
      · obtain ⟨f1, f2, f3, f4, f5, f6, f7⟩ := h.forget ho hu hd hm _ rfl
        exact ⟨_, f1, f2, f3, f4, f5, f6, f7, fun e he => by simp [he],
          fun _ => ⟨ho, fun e he => by simpa using (List.mem_filter.mp he).2⟩, fun e he => (List.mem_filter.mp he).1⟩
    · exact ⟨l, h.locks, h.life, h.core, h.rest, h.piece, fun _ _ => Iff.rfl, hm, fun _ _ => Iff.rfl,
        fun hm' => absurd hm' hm, fun _ he => he⟩
  obtain ⟨l', k1, k2, k3, k4, k5, k6, k7, k8, k9, k10⟩ := key
  refine ⟨l', k8, k7, k9, k10, fun q x => (k1 q x).add rfl rfl rfl, fun q => (k2 q).add (by simp [PC.uses]) ?_ rfl,
    fun q x hm => (k3 q x hm).add rfl rfl rfl, fun q hm => (k4 q hm).add (by rintro b (rfl | rfl | rfl | rfl | rfl) <;> simp),
    fun q hl => ?_, fun q hq => ?_, fun q hm => ?_, k5, h.done⟩
  · simp only [PC.dials, decide_eq_true_eq]; rintro rfl; exact ⟨k7, hd⟩
  · rcases h.listed q hl with h | ⟨b, hb, hc⟩
    · exact .inl h
    · exact .inr ⟨b, by simp [hb], hc⟩
  · have hqp : q ≠ p := by
      rintro rfl
      have := hq _ (List.mem_cons_self ..)
      simp [PC.dials] at this
    rw [k6 q hqp]
    exact h.last q fun b hb => hq b (by simp [hb])
  · have hqp : q ≠ p := by rintro rfl; exact k7 hm
    exact h.never q ((k6 q hqp).mp hm)

theorem LInv.initial (size : Nat) : LInv (init size).g [] (init size).threads := by
  have h := Inv.initial size
  refine ⟨h.locks, fun p => ?_, by simp, fun p _ => ?_, by simp [init, G.listed], by simp [init, lastDial], by simp, by simp,
    fun p x m hm => ?_⟩
  · constructor <;> simp [init, Excl.nil, G.listed, G.relog]
  · constructor <;> simp [init, flushes, copies, oks, G.sock, G.connected]
  · have : m = [] := by simpa [init, lives] using hm
    simp [this, Delivered, flushes, copies, oks]

end

/-- What a goroutine does first; not `Dial`. -/
def PC.fresh : PC → Bool
  | .w1 .. | .r1 .. | .c1 _ _ .user | .s1 | .v1 => true
  | _ => false

/-- Everything is delivered, in each life; and whatever else holds. -/
theorem From.livesWith {ok : State → Label → Prop} (hok : ∀ s l, ok s l → Lives s l) {K : G → List Ev → List PC → Prop}
    (hp : ∀ g l ts ts', K g l ts → ts.Perm ts' → K g l ts')
    (ha : ∀ g l pc rest ts ch conns g' pcs l', LInv g l (pc :: rest) → K g l (pc :: rest) → ts.Perm (pc :: rest) →
      ok ⟨g, ts⟩ (.thread pc ch conns) → Acts g pc g' pcs →
      (l' = l ∧ g'.log = g.log ∨ ∃ e, g'.log = g.log ++ [e] ∧ l' = l ++ [e]) → Acts (g.relog l) pc (g'.relog l') pcs →
      LInv g' l' (pcs ++ rest) → K g' l' (pcs ++ rest))
    (hadd : ∀ g l ts a, K g l ts → a.fresh = true → K g l (a :: ts))
    (hd : ∀ g l l' ts p, K g l ts → (∀ a ∈ ts, a.dials p = false) → (∀ e, e.about p = false → (e ∈ l' ↔ e ∈ l)) →
      Ev.dialEnd p true ∉ l' → (Ev.dialEnd p true ∈ l → g.connected p = false ∧ ∀ e ∈ l', e.about p = false) →
      (∀ e ∈ l', e ∈ l) →
      LInv g l ts → LInv g l' (.d1 p :: ts) → K g l' (.d1 p :: ts))
    (hf : ∀ g l ts, K g l ts → K g.refuse l ts) {size : Nat} (h0 : K (init size).g [] (init size).threads)
    {s : State} (h : ReachableIf size ok s) : ∃ l, LInv s.g l s.threads ∧ K s.g l s.threads := by
  refine From.inv (ok := ok) (I := fun g ts => ∃ l, LInv g l ts ∧ K g l ts) ?_ ?_ ?_ ?_ ?_ ?_ ?_ ?_ ?_
    ⟨[], LInv.initial size, h0⟩ h
  · rintro g ts ts' ⟨l, h, k⟩ hp'
    refine ⟨l, ⟨fun p x => (h.locks p x).perm hp', fun p => (h.life p).perm hp',
      fun p x hm => (h.core p x hm).perm ((h.locks p x).relog l) ((h.locks p x.other).relog l) hp', fun p hm => ?_,
      fun p hl => ?_, fun p hd => ?_, h.never, h.piece, h.done⟩, hp _ _ _ _ k hp'⟩
    · obtain ⟨a1, a2, a3, a4⟩ := h.rest p hm
      refine ⟨a1, a2, fun a ha => a3 a (hp'.mem_iff.mpr ha), fun hc => ?_⟩
      rw [← hp'.mem_iff, ← hp'.mem_iff]; exact a4 hc
    · rcases h.listed p hl with h | ⟨b, hb, hc⟩
      · exact .inl h
      · exact .inr ⟨b, hp'.mem_iff.mp hb, hc⟩
    · exact h.last p fun b hb => hd b (hp'.mem_iff.mp hb)
  · rintro g pc rest ts ch conns g' pcs ⟨l, h, k⟩ hp' _ ho hac
    obtain ⟨l', h1, h2, h3⟩ := h.acts hac
    exact ⟨l', h3, ha _ _ _ _ _ _ _ _ _ _ h k hp' ho hac h1 h2 h3⟩
  · rintro g ts q z chunks ⟨l, h, k⟩ ho
    have ho := hok _ _ ho
    refine ⟨l, h.add (fun _ _ => ⟨rfl, rfl, rfl, rfl⟩) (fun p hp => ?_) (fun _ => ⟨rfl, rfl⟩), hadd _ _ _ _ k rfl⟩
    have : q = p := by simpa [PC.uses] using hp
    subst this
    exact (h.last q ho.1).mpr ho.2
  · rintro g ts q z dl ⟨l, h, k⟩ ho
    have ho := hok _ _ ho
    refine ⟨l, h.add (fun _ _ => ⟨rfl, rfl, rfl, rfl⟩) (fun p hp => ?_) (fun _ => ⟨rfl, rfl⟩), hadd _ _ _ _ k rfl⟩
    have : q = p := by simpa [PC.uses] using hp
    subst this
    exact (h.last q ho.1).mpr ho.2
  · rintro g ts q ⟨l, h, k⟩ ho
    have ho := hok _ _ ho
    obtain ⟨l', h1, h2, h3, h4, h5⟩ := h.dial ho.1 ho.2
    exact ⟨l', h5, hd _ _ _ _ _ k ho.1 h1 h2 h3 h4 h h5⟩
  · rintro g ts q z ⟨l, h, k⟩ ho
    have ho := hok _ _ ho
    refine ⟨l, h.add (fun _ _ => ⟨rfl, rfl, rfl, rfl⟩) (fun p hp => ?_) (fun _ => ⟨rfl, rfl⟩), hadd _ _ _ _ k rfl⟩
    have : q = p := by simpa [PC.uses, Cont.uses] using hp
    subst this
    exact (h.last q ho.1).mpr ho.2
  · rintro g ts ⟨l, h, k⟩ _
    exact ⟨l, h.add (fun _ _ => ⟨rfl, rfl, rfl, rfl⟩) (fun p hp => by simp [PC.uses] at hp) (fun _ => ⟨rfl, rfl⟩),
      hadd _ _ _ _ k rfl⟩
  · rintro g ts ⟨l, h, k⟩ _
    exact ⟨l, h.add (fun _ _ => ⟨rfl, rfl, rfl, rfl⟩) (fun p hp => by simp [PC.uses] at hp) (fun _ => ⟨rfl, rfl⟩),
      hadd _ _ _ _ k rfl⟩
  · rintro g ts ⟨l, h, k⟩ _
    refine ⟨l, ⟨fun p x => ?_, fun p => ?_, fun p x hm => ?_, fun p hm => ?_, h.listed, h.last, h.never, h.piece, h.done⟩,
      hf _ _ _ k⟩
    · obtain ⟨h1, h2, h3, h4, h5, h6⟩ := h.locks p x; exact ⟨h1, h2, h3, h4, h5, h6⟩
    · obtain ⟨h1, h2, h3, h4, h5⟩ := h.life p; exact ⟨h1, h2, h3, h4, h5⟩
    · exact Core.same (h.core p x hm) (by constructor <;> simp)
    · obtain ⟨a1, a2, a3, a4⟩ := h.rest p hm; exact ⟨a1, a2, a3, a4⟩

theorem From.lives {ok : State → Label → Prop} (hok : ∀ s l, ok s l → Lives s l) {size : Nat} {s : State}
    (h : ReachableIf size ok s) : ∃ l, LInv s.g l s.threads := by
  obtain ⟨l, h, _⟩ := From.livesWith hok (K := fun _ _ _ => True) (fun _ _ _ _ _ _ => trivial)
    (fun _ _ _ _ _ _ _ _ _ _ _ _ _ _ _ _ _ _ => trivial) (fun _ _ _ _ _ _ => trivial)
    (fun _ _ _ _ _ _ _ _ _ _ _ _ _ => trivial) (fun _ _ _ _ => trivial) trivial h
  exact ⟨l, h⟩

end Webwire.Mem
