import Verif.Proofs.Memchan

/-!
# memchan: the invariant of one direction of a pair
-/

set_option autoImplicit false

namespace Webwire.Mem

/-- Holds the writer lock. -/
def PC.wr (p : Nat) (x : Side) : PC → Bool
  | .w2 q y _ | .w3 q y .. | .w4 q y _ | .w5 q y _ | .w6 q y _ | .w7 q y _ | .w8 q y _ | .w9 q y _ =>
    decide (q = p ∧ y = x)
  | _ => false

/-- Past the check of `GetWriter`, before handing over. -/
def PC.early (p : Nat) (x : Side) : PC → Bool
  | .w3 q y .. | .w4 q y _ | .w5 q y _ | .w6 q y _ | .w7 q y _ => decide (q = p ∧ y = x)
  | _ => false

/-- After handing over. -/
def PC.sent (p : Nat) (x : Side) : PC → Bool
  | .w8 q y _ | .w9 q y _ => decide (q = p ∧ y = x)
  | _ => false

/-- Holds the buffer lock. -/
def PC.bf (p : Nat) (x : Side) : PC → Bool
  | .w5 q y _ | .w6 q y _ | .w7 q y _ | .w8 q y _ | .w9 q y _ | .w10 q y .. => decide (q = p ∧ y = x)
  | _ => false

/-- About to finish the write. -/
def PC.fin (p : Nat) (x : Side) : PC → Bool
  | .w10 q y .. => decide (q = p ∧ y = x)
  | _ => false

/-- Holds the read lock. -/
def PC.rd (p : Nat) (x : Side) : PC → Bool
  | .r2 q y .. | .r3 q y _ | .r4 q y .. | .r5 q y _ | .r6 q y | .r7 q y
  | .c1 q y (.read _) | .c2 q y (.read _) | .c3 q y (.read _) | .c4 q y (.read _) | .c5 q y (.read _)
  | .c6 q y (.read _) => decide (q = p ∧ y = x)
  | _ => false

/-- Took a message and has not confirmed it. -/
def PC.took (p : Nat) (x : Side) : PC → Bool
  | .r5 q y _ | .r6 q y => decide (q = p ∧ y = x)
  | _ => false

/-- Has closed the pair and is about to tell everybody. -/
def PC.closing (p : Nat) : PC → Bool
  | .c2 q .. | .c3 q .. | .c4 q .. | .c5 q .. | .c6 q .. => decide (q = p)
  | _ => false

/-- At most one goroutine of that kind. -/
def Excl (P : PC → Bool) (ts : List PC) : Prop := ts.Pairwise fun a b => P a = false ∨ P b = false

theorem Excl.perm {P : PC → Bool} {ts ts' : List PC} (h : Excl P ts) (hp : ts.Perm ts') : Excl P ts' :=
  (hp.pairwise_iff (fun h => h.symm)).mp h

@[grind =] theorem Excl.nil {P : PC → Bool} : Excl P [] ↔ True := by simp [Excl]

@[grind =] theorem Excl.cons {P : PC → Bool} {a : PC} {ts : List PC} :
    Excl P (a :: ts) ↔ (P a = true → ∀ b ∈ ts, P b = false) ∧ Excl P ts := by
  simp only [Excl, List.pairwise_cons]
  cases P a <;> simp

/-! ## The lists of the log -/

theorem filterMap_ev {α : Type} (f : Ev → Option α) (l : List Ev) (e : Ev) :
    (l ++ [e]).filterMap f = l.filterMap f ++ (f e).toList := by
  rw [List.filterMap_append]; cases h : f e <;> simp [h]

theorem flushes_ev (p : Nat) (x : Side) (l : List Ev) (e : Ev) :
    flushes p x (l ++ [e]) = flushes p x l ++ (e.flushOf p x).toList := filterMap_ev _ l e
theorem copies_ev (p : Nat) (x : Side) (l : List Ev) (e : Ev) :
    copies p x (l ++ [e]) = copies p x l ++ (e.copyOf p x).toList := filterMap_ev _ l e
theorem oks_ev (p : Nat) (x : Side) (l : List Ev) (e : Ev) :
    oks p x (l ++ [e]) = oks p x l ++ (e.okOf p x).toList := filterMap_ev _ l e

/-- When sockets are used. -/
structure Life (g : G) (ts : List PC) (p : Nat) : Prop where
  uses : ∀ a ∈ ts, a.uses p = true → Ev.dialEnd p true ∈ g.log
  dials : ∀ a ∈ ts, a.dials p = true → Ev.dialEnd p true ∉ g.log
  excl : Excl (PC.dials p) ts
  listed : g.listed p = true → Ev.dialEnd p true ∈ g.log
  closing : ∀ a ∈ ts, a.closing p = true → g.connected p = false

/-- Who has the locks. -/
structure Locks (g : G) (ts : List PC) (p : Nat) (x : Side) : Prop where
  lockW : ∀ a ∈ ts, a.wr p x = true → (g.sock p x).writerLock = true
  exclW : Excl (PC.wr p x) ts
  lockB : ∀ a ∈ ts, a.bf p x = true → (g.sock p x).bufLock = true
  exclB : Excl (PC.bf p x) ts
  lockR : ∀ a ∈ ts, a.rd p x = true → (g.sock p x).readLock = true
  exclR : Excl (PC.rd p x) ts

/-- The state of the direction from side `x` of the pair; `W` has the writer lock, `F` is about to finish a write, `R`
has the read lock of the other side. -/
structure Core (g : G) (W F R : Option PC) (p : Nat) (x : Side) : Prop where
  recvW : (g.sock p x.other).recv ≠ .absent → ∃ m, W = some (.w9 p x m)
  parkedR : (g.sock p x.other).parked = true → R = some (.r7 p x.other) ∧ (g.sock p x.other).chan.buf = none
  gen : ∀ dl i, R = some (.r4 p x.other dl i) → i = (g.sock p x.other).gen
  pendChan : ∀ n, (g.sock p x.other).chan.buf = some n →
    flushes p x g.log = copies p x.other g.log ++ [(g.sock p x).arr.take n] ∧ R.any (PC.took p x.other) = false
  pendRead : ∀ n, R = some (.r5 p x.other n) →
    flushes p x g.log = copies p x.other g.log ++ [(g.sock p x).arr.take n]
  pendNone : (g.sock p x.other).chan.buf = none → (∀ n, R ≠ some (.r5 p x.other n)) →
    flushes p x g.log = copies p x.other g.log
  gotTrue : (g.sock p x.other).recv = .got true → (g.sock p x.other).chan.buf = none ∧
    R.any (PC.took p x.other) = false ∧ (g.sock p x.other).parked = false
  calm : (g.connected p = true ∧ W.any (PC.sent p x) = false) ∨ W.any (PC.early p x) = true →
    (g.sock p x.other).chan.buf = none ∧ R.any (PC.took p x.other) = false ∧
    (g.sock p x.other).parked = false ∧
    (flushes p x g.log = oks p x g.log ∨ ∃ m, F = some (.w10 p x m .ok))
  sent8 : ∀ m, W = some (.w8 p x m) → flushes p x g.log = oks p x g.log ++ [m]
  sent9 : ∀ m, W = some (.w9 p x m) → flushes p x g.log = oks p x g.log ++ [m]
  fin : ∀ m, F = some (.w10 p x m .ok) → flushes p x g.log = oks p x g.log ++ [m] ∧
    (g.sock p x.other).chan.buf = none ∧ (∀ n, R ≠ some (.r5 p x.other n))
  gotFalse : (g.sock p x.other).recv = .got false → g.connected p = false
  pre : Ev.dialEnd p true ∉ g.log → (g.sock p x.other).chan.buf = none ∧ (g.sock p x.other).parked = false ∧
    flushes p x g.log = oks p x g.log
  weak : flushes p x g.log = oks p x g.log ∨ ∃ m, flushes p x g.log = oks p x g.log ++ [m]
  pendOk : (g.sock p x.other).chan.buf ≠ none ∨ (∃ n, R = some (.r5 p x.other n)) →
    ∃ m, flushes p x g.log = oks p x g.log ++ [m]
  len : (g.sock p x).len ≤ (g.sock p x).arr.length
  idle : W.any (PC.early p x) = false → W.any (PC.sent p x) = false → F = none → (g.sock p x).len = 0
  w3 : ∀ m rest, W = some (.w3 p x m rest) → (F ≠ none → rest.flatten = m) ∧
    (F = none → (g.sock p x).arr.take (g.sock p x).len ++ rest.flatten = m)
  w4 : ∀ m, W = some (.w4 p x m) → (F ≠ none → m = []) ∧
    (F = none → (g.sock p x).len = 0 ∨ (g.sock p x).arr.take (g.sock p x).len = m)
  w5 : ∀ m, W = some (.w5 p x m) → (g.sock p x).arr.take (g.sock p x).len = m
  w6 : ∀ m, W = some (.w6 p x m) → (g.sock p x).arr.take (g.sock p x).len = m
  w7 : ∀ m, W = some (.w7 p x m) → (g.sock p x).arr.take (g.sock p x).len = m

theorem Life.perm {g : G} {ts ts' : List PC} {p : Nat} (h : Life g ts p) (hp : ts.Perm ts') : Life g ts' p :=
  ⟨fun a ha => h.uses a (hp.mem_iff.mpr ha), fun a ha => h.dials a (hp.mem_iff.mpr ha), h.excl.perm hp,
    h.listed, fun a ha => h.closing a (hp.mem_iff.mpr ha)⟩

theorem Locks.perm {g : G} {ts ts' : List PC} {p : Nat} {x : Side} (h : Locks g ts p x) (hp : ts.Perm ts') :
    Locks g ts' p x :=
  ⟨fun a ha => h.lockW a (hp.mem_iff.mpr ha), h.exclW.perm hp, fun a ha => h.lockB a (hp.mem_iff.mpr ha),
    h.exclB.perm hp, fun a ha => h.lockR a (hp.mem_iff.mpr ha), h.exclR.perm hp⟩

theorem find_perm {P : PC → Bool} {ts ts' : List PC} (h : Excl P ts) (hp : ts.Perm ts') :
    ts.find? P = ts'.find? P := by
  induction hp with
  | nil => rfl
  | cons a _ ih =>
    simp only [List.find?_cons]
    rw [ih (Excl.cons.mp h).2]
  | swap a b l =>
    have := Excl.cons.mp h
    simp only [List.find?_cons]
    cases ha : P a <;> cases hb : P b <;> simp_all
  | trans h1 _ ih1 ih2 => rw [ih1 h, ih2 (h.perm h1)]

theorem find_rest {P : PC → Bool} {a : PC} {ts : List PC} (h : Excl P (a :: ts)) (ha : P a = true) :
    ts.find? P = none := by
  rw [List.find?_eq_none]
  intro b hb
  simp [(Excl.cons.mp h).1 ha b hb]

section steps
variable {g g' : G} {pc : PC} {pcs rest : List PC} {p : Nat} {x : Side}

/-- How a step may change a lock. -/
def SlotStep (P : PC → Bool) (lk lk' : Bool) (pc : PC) (pcs : List PC) : Prop :=
  pcs.length ≤ 1 ∧
  (lk = false ∧ lk' = true ∨ (∀ b ∈ pcs, P b = true → P pc = true) ∧ (lk' = lk ∨ lk' = true) ∨
    P pc = true ∧ ∀ b ∈ pcs, P b = false)

theorem SlotStep.excl {P : PC → Bool} {lk lk' : Bool} (h : SlotStep P lk lk' pc pcs)
    (hl : ∀ a ∈ pc :: rest, P a = true → lk = true) (he : Excl P (pc :: rest)) :
    (∀ a ∈ pcs ++ rest, P a = true → lk' = true) ∧ Excl P (pcs ++ rest) := by
  rw [Excl.cons] at he
  obtain ⟨h0, h⟩ := h
  match pcs, h0 with
  | [], _ => grind
  | [b], _ =>
    simp only [List.cons_append, List.nil_append, Excl.cons]
    grind

theorem Acts.slotW (ha : Acts g pc g' pcs) (p : Nat) (x : Side) :
    SlotStep (PC.wr p x) (g.sock p x).writerLock (g'.sock p x).writerLock pc pcs := by
  unfold SlotStep
  cases ha <;> simp [PC.wr, Sock.setChan, Sock.reset, Sock.put] <;> grind

theorem Acts.slotB (ha : Acts g pc g' pcs) (p : Nat) (x : Side) :
    SlotStep (PC.bf p x) (g.sock p x).bufLock (g'.sock p x).bufLock pc pcs := by
  unfold SlotStep
  cases ha <;> simp [PC.bf, Sock.setChan, Sock.reset, Sock.put] <;> grind

theorem Acts.slotR (ha : Acts g pc g' pcs) (p : Nat) (x : Side) :
    SlotStep (PC.rd p x) (g.sock p x).readLock (g'.sock p x).readLock pc pcs := by
  unfold SlotStep
  cases ha with
  | c1a _ _ k | c2a _ _ k | c2b _ _ k | c3a _ _ k | c3b _ _ k | c4a _ _ k | c4b _ _ k | c5a _ _ k | c5b _ _ k =>
    cases k <;> simp [PC.rd, Sock.setChan] <;> grind
  | _ => simp [PC.rd, Sock.setChan, Sock.reset, Sock.put] <;> grind

theorem Locks.acts (hi : Locks g (pc :: rest) p x) (ha : Acts g pc g' pcs) : Locks g' (pcs ++ rest) p x := by
  have h1 := (ha.slotW p x).excl hi.lockW hi.exclW
  have h2 := (ha.slotB p x).excl hi.lockB hi.exclB
  have h3 := (ha.slotR p x).excl hi.lockR hi.exclR
  exact ⟨h1.1, h1.2, h2.1, h2.2, h3.1, h3.2⟩

theorem Acts.log (ha : Acts g pc g' pcs) : g'.log = g.log ∨ ∃ e, g'.log = g.log ++ [e] := by
  cases ha <;> simp

theorem Acts.uses (ha : Acts g pc g' pcs) (p : Nat) :
    ∀ b ∈ pcs, b.uses p = true → pc.uses p = true ∨ g.listed p = true := by
  cases ha with
  | s2b q rest h => simp [PC.uses, Cont.uses, h.2]; grind
  | _ => simp [PC.uses, Cont.uses] <;> grind

theorem Acts.life (ha : Acts g pc g' pcs) (p : Nat) :
    pcs.length ≤ 1 ∧
    (∀ b ∈ pcs, b.dials p = true → pc.dials p = true) ∧
    (Ev.dialEnd p true ∈ g.log → Ev.dialEnd p true ∈ g'.log) ∧
    (Ev.dialEnd p true ∈ g'.log → Ev.dialEnd p true ∈ g.log ∨ pc.dials p = true ∧ pcs = []) ∧
    (g'.listed p = true → g.listed p = true ∨ Ev.dialEnd p true ∈ g'.log) := by
  cases ha <;> simp [PC.dials] <;> grind

theorem Acts.closing (ha : Acts g pc g' pcs) (p : Nat) :
    (∀ b ∈ pcs, b.closing p = true → pc.closing p = true ∨ g'.connected p = false) ∧
    (g'.connected p = true → g.connected p = true ∨ pc.dials p = true) ∧
    (∀ b ∈ pcs, b.closing p = true → pc.uses p = true) := by
  cases ha <;> simp [PC.closing, PC.dials, PC.uses] <;> grind

theorem PC.closing_uses {a : PC} (h : a.closing p = true) : a.uses p = true := by
  cases a <;> simp_all [PC.closing, PC.uses]

theorem Life.acts (hi : Life g (pc :: rest) p) (ha : Acts g pc g' pcs) : Life g' (pcs ++ rest) p := by
  obtain ⟨h1, h2, h3, hl, hc⟩ := hi
  rw [Excl.cons] at h3
  obtain ⟨h0, h5, h6, h7, h8⟩ := ha.life p
  have h4 := ha.uses p
  obtain ⟨h9, h10, h11⟩ := ha.closing p
  simp only [List.forall_mem_cons] at h1 h2 hc
  refine ⟨fun a hm hu => ?_, fun a hm hd hl => ?_, ?_, ?_, ?_⟩
  · rcases List.mem_append.mp hm with hm | hm
    · rcases h4 a hm hu with h | h
      · exact h6 (h1.1 h)
      · exact h6 (hl h)
    · exact h6 (h1.2 a hm hu)
  · rcases List.mem_append.mp hm with hm | hm
    · rcases h7 hl with h | ⟨_, h⟩
      · exact h2.1 (h5 a hm hd) h
      · simp [h] at hm
    · rcases h7 hl with h | ⟨h, _⟩
      · exact h2.2 a hm hd h
      · simp [h3.1 h a hm] at hd
  · clear ha h4 h6 h7 h8 h9 h10 h11
    match pcs, h0 with
    | [], _ => exact h3.2
    | [b], _ => exact Excl.cons.mpr ⟨fun hb => h3.1 (h5 b (by simp) hb), h3.2⟩
  · intro h; rcases h8 h with h | h
    · exact h6 (hl h)
    · exact h
  · intro a hm hcl
    cases hcn : g'.connected p
    · rfl
    · exfalso
      rcases List.mem_append.mp hm with hm | hm
      · rcases h9 a hm hcl with h | h
        · rcases h10 hcn with h' | h'
          · simp [hc.1 h] at h'
          · exact h2.1 h' (h1.1 (PC.closing_uses h))
        · simp [h] at hcn
      · rcases h10 hcn with h' | h'
        · simp [hc.2 a hm hcl] at h'
        · exact h2.1 h' (h1.2 a hm (PC.closing_uses hcl))

end steps
end Webwire.Mem
