import Verif.Proofs.Memchan2

/-!
# memchan: the invariant of one direction holds in every execution with one life per pair
-/

set_option autoImplicit false

namespace Webwire.Mem

section
variable {g g' : G} {W F R W' F' R' : Option PC} {p : Nat} {x : Side}

/-- Nothing the direction depends on has changed. -/
structure Same (g g' : G) (p : Nat) (x : Side) : Prop where
  arr : (g'.sock p x).arr = (g.sock p x).arr
  len : (g'.sock p x).len = (g.sock p x).len
  buf : (g'.sock p x.other).chan.buf = (g.sock p x.other).chan.buf
  gen : (g'.sock p x.other).gen = (g.sock p x.other).gen
  recv : (g'.sock p x.other).recv = (g.sock p x.other).recv ∨
    (g.sock p x.other).recv = .waiting ∧ (g'.sock p x.other).recv = .got false ∧ g'.connected p = false
  life : Ev.dialEnd p true ∉ g'.log → Ev.dialEnd p true ∉ g.log
  parked : (g'.sock p x.other).parked = (g.sock p x.other).parked
  conn : g'.connected p = true → g.connected p = true
  fl : flushes p x g'.log = flushes p x g.log
  cp : copies p x.other g'.log = copies p x.other g.log
  ok : oks p x g'.log = oks p x g.log

theorem Core.same (h : Core g W F R p x) (s : Same g g' p x) : Core g' W F R p x := by
  obtain ⟨h1, h2, h3, h4, h5, h6, h7, h8, h9, h10, h11, h12, h13, h14, h15, h16, h17, h18, h19, h20, h21, h22⟩ := h
  obtain ⟨s1, s2, s3, s4, s5, s0, s6, s7, s8, s9, s10⟩ := s
  constructor
  case recvW => rcases s5 with s5 | s5 <;> simp_all
  case gotFalse =>
    intro h
    rcases s5 with s5 | s5
    · rw [s5] at h; cases hg : g'.connected p; rfl; simp [h12 h] at s7; simp [s7] at hg
    · exact s5.2.2
  case pre => intro h; rw [s3, s6, s8, s10]; exact h13 (s0 h)
  case gotTrue => rcases s5 with s5 | s5 <;> simp_all
  case calm => intro h; rw [s3, s6, s8, s10]; apply h8; rcases h with h | h; exact .inl ⟨s7 h.1, h.2⟩; exact .inr h
  all_goals simp only [s1, s2, s3, s4, s6, s8, s9, s10]; assumption

/-- The reader goes on without a message. -/
theorem Core.swapR (h : Core g W F R p x) (h1 : R.any (PC.took p x.other) = false)
    (h2 : R = some (.r7 p x.other) → (g.sock p x.other).parked = false) (h3 : R'.any (PC.took p x.other) = false)
    (h4 : ∀ dl i, R' = some (.r4 p x.other dl i) → i = (g.sock p x.other).gen) : Core g W F R' p x := by
  have h5 : ∀ n, R ≠ some (.r5 p x.other n) := fun n e => by simp [e, PC.took] at h1
  have h6 : ∀ n, R' ≠ some (.r5 p x.other n) := fun n e => by simp [e, PC.took] at h3
  have h7 : (g.sock p x.other).parked = false := by
    cases hp : (g.sock p x.other).parked
    · rfl
    · have := h2 (h.parkedR hp).1; simp_all
  obtain ⟨g1, g2, g3, g4, g5, g6, g7, g8, g9, g10, g11, g12, g13, g14, g15, g16, g17, g18, g19, g20, g21, g22⟩ := h
  constructor
  case parkedR => simp [h7]
  case gen => exact h4
  all_goals first | assumption | grind

/-- The writer goes on without having passed the check. -/
theorem Core.swapW (h : Core g W F R p x) (h1 : W.any (PC.early p x) = false) (h2 : W.any (PC.sent p x) = false)
    (h3 : W'.any (PC.early p x) = false) (h4 : W'.any (PC.sent p x) = false) : Core g W' F R p x := by
  obtain ⟨g1, g2, g3, g4, g5, g6, g7, g8, g9, g10, g11, g12, g13, g14, g15, g16, g17, g18, g19, g20, g21, g22⟩ := h
  have e1 : ∀ m, W ≠ some (.w9 p x m) := fun m e => by simp [e, PC.sent] at h2
  have e2 : ∀ m, W' ≠ some (.w9 p x m) := fun m e => by simp [e, PC.sent] at h4
  have e3 : ∀ m, W' ≠ some (.w8 p x m) := fun m e => by simp [e, PC.sent] at h4
  have e4 : ∀ m c, W' ≠ some (.w3 p x m c) := fun m c e => by simp [e, PC.early] at h3
  have e5 : ∀ m, W' ≠ some (.w4 p x m) := fun m e => by simp [e, PC.early] at h3
  have e6 : ∀ m, W' ≠ some (.w5 p x m) := fun m e => by simp [e, PC.early] at h3
  have e7 : ∀ m, W' ≠ some (.w6 p x m) := fun m e => by simp [e, PC.early] at h3
  have e8 : ∀ m, W' ≠ some (.w7 p x m) := fun m e => by simp [e, PC.early] at h3
  constructor
  case recvW => intro h; obtain ⟨m, hm⟩ := g1 h; exact absurd hm (e1 m)
  case calm => intro h; apply g8; rcases h with h | h; exact .inl ⟨h.1, h2⟩; simp [h3] at h
  case idle => exact fun _ _ => g17 h1 h2
  all_goals first | assumption | grind

/-! ## The steps of the writer -/

theorem Sock.put_take {s : Sock} {c : Bytes} (h : s.len ≤ s.arr.length) :
    (s.put c).arr.take (s.put c).len = s.arr.take s.len ++ c := by
  simp only [Sock.put]
  have : (s.arr.take s.len ++ c).length = s.len + c.length := by simp; omega
  rw [← this, List.take_left']
  rfl

theorem Sock.put_length {s : Sock} {c : Bytes} (h : s.len + c.length ≤ s.arr.length) :
    (s.put c).len ≤ (s.put c).arr.length := by
  simp only [Sock.put]
  simp
  omega

@[simp] theorem Sock.put_chan (s : Sock) (c : Bytes) : (s.put c).chan = s.chan := rfl

theorem took_r5 (p : Nat) (y : Side) (n : Nat) (R : Option PC) (h : R = some (.r5 p y n)) :
    R.any (PC.took p y) = true := by simp [h, PC.took]
theorem took_r7 (p : Nat) (y z : Side) (R : Option PC) (h : R = some (.r7 p z)) :
    R.any (PC.took p y) = false := by simp [h, PC.took]
theorem buf_cases (c : Chan) : c.buf = none ∨ ∃ n, c.buf = some n := by
  cases c.buf <;> simp

/-- Take the invariant apart and prove it again. -/
macro "core" h:ident : tactic => `(tactic|
  (obtain ⟨g1, g2, g3, g4, g5, g6, g7, g8, g9, g10, g11, g12, g13, g14, g15, g16, g17, g18, g19, g20, g21, g22⟩ := $h
   simp [PC.early, PC.sent, PC.took] at g1 g2 g3 g4 g5 g6 g7 g8 g9 g10 g11 g12 g13 g14 g15 g16 g17 g18 g19 g20 g21 g22
   constructor <;> (try simp [PC.early, PC.sent, PC.took, flushes_ev, copies_ev, oks_ev, Ev.flushOf, Ev.copyOf, Ev.okOf,
     Sock.chan, Sock.setChan]) <;> simp only [Sock.chan] at g2 g4 g6 g7 g8 g11 g13 g15 <;>
     first | assumption | grind [took_r5, took_r7, buf_cases]))

theorem Core.w2 {chunks : List Bytes} (hd : Ev.dialEnd p true ∈ g.log)
    (h : Core g (some (.w2 p x chunks)) F R p x) (hc : g.connected p = true) :
    Core g (some (.w3 p x chunks.flatten chunks)) F R p x := by
  core h

theorem Core.w3a {m : Bytes} (hd : Ev.dialEnd p true ∈ g.log)
    (h : Core g (some (.w3 p x m [])) F R p x) : Core g (some (.w4 p x m)) F R p x := by
  core h

theorem Core.w3b {m c : Bytes} {cs : List Bytes} (h : Core g (some (.w3 p x m (c :: cs))) none R p x) :
    Core (g.upd p x fun s => { s with len := 0 }) (some (.w4 p x m)) none R p x := by
  core h

theorem Core.w3c {m c : Bytes} {cs : List Bytes} (h : Core g (some (.w3 p x m (c :: cs))) none R p x)
    (hl : ¬(g.sock p x).arr.length - (g.sock p x).len < c.length) :
    Core (g.upd p x fun s => s.put c) (some (.w3 p x m cs)) none R p x := by
  have e1 := Sock.put_take (c := c) h.len
  have e2 := Sock.put_length (s := g.sock p x) (c := c) (by have := h.len; omega)
  core h

theorem Core.w4a {m : Bytes} (hd : Ev.dialEnd p true ∈ g.log)
    (h : Core g (some (.w4 p x m)) none R p x) (hl : (g.sock p x).len < 1) :
    Core ((g.upd p x fun s => { s with bufLock := true }).ev (.writeEnd p x m .noData)) none none R p x := by
  core h

theorem Core.w4b {m : Bytes} (hd : Ev.dialEnd p true ∈ g.log)
    (h : Core g (some (.w4 p x m)) none R p x) (hl : ¬(g.sock p x).len < 1) :
    Core (g.upd p x fun s => { s with bufLock := true }) (some (.w5 p x m)) none R p x := by
  core h

theorem Core.w5a {m : Bytes} (hd : Ev.dialEnd p true ∈ g.log)
    (h : Core g (some (.w5 p x m)) none R p x) : Core g (some (.w6 p x m)) none R p x := by
  core h

theorem Core.w5b {m : Bytes} (hd : Ev.dialEnd p true ∈ g.log)
    (h : Core g (some (.w5 p x m)) none R p x) (hc : g.connected p = false) :
    Core (g.upd p x fun s => { s with writerLock := false }) none (some (.w10 p x m .disconnected)) R p x := by
  core h

theorem Core.w6' {m : Bytes} (hd : Ev.dialEnd p true ∈ g.log)
    (h : Core g (some (.w6 p x m)) none R p x) :
    Core (g.upd p x.other fun s => { s with readerLock := true }) (some (.w7 p x m)) none R p x := by
  core h

theorem Core.w7' {m : Bytes} (hd : Ev.dialEnd p true ∈ g.log)
    (h : Core g (some (.w7 p x m)) none R p x) :
    Core ((g.upd p x.other fun s =>
        { s.setChan s.gen { buf := some (g.sock p x).len } with readerLock := false }).ev (.flushed p x m))
      (some (.w8 p x m)) none R p x := by
  have hc := h.calm (.inr (by simp [PC.early]))
  have h5 : ∀ n, R ≠ some (.r5 p x.other n) := fun n e => by have := took_r5 _ _ _ _ e; simp [hc] at this
  have hfc := h.pendNone hc.1 h5
  core h

theorem Core.w8a {m : Bytes} (hd : Ev.dialEnd p true ∈ g.log)
    (h : Core g (some (.w8 p x m)) none R p x) (hp : (g.sock p x.other).parked = true) :
    Core (g.upd p x.other fun s => { s with parked := false, recv := .got true }) (some (.w9 p x m)) none R p x := by
  core h

theorem Core.w8b {m : Bytes} (hd : Ev.dialEnd p true ∈ g.log)
    (h : Core g (some (.w8 p x m)) none R p x) (hp : (g.sock p x.other).parked = false) :
    Core (g.upd p x.other fun s => { s with recv := .waiting }) (some (.w9 p x m)) none R p x := by
  core h

theorem Core.w9 {m : Bytes} {ok : Bool} (hd : Ev.dialEnd p true ∈ g.log)
    (h : Core g (some (.w9 p x m)) none R p x)
    (hp : (g.sock p x.other).recv = .got ok) (hc : ok = false → g.connected p = false) :
    Core ((g.upd p x.other fun s => { s with recv := .absent }).upd p x fun s => { s with writerLock := false })
      none (some (.w10 p x m (if ok then .ok else .closed))) R p x := by
  cases ok <;> core h

theorem Core.w10 {m : Bytes} {res : WriteRes} (hd : Ev.dialEnd p true ∈ g.log)
    (h : Core g W (some (.w10 p x m res)) R p x)
    (hW : W.any (PC.bf p x) = false) :
    Core ((g.upd p x fun s => { s with len := 0, bufLock := false }).ev (.writeEnd p x m res)) W none R p x := by
  have e5 : ∀ m, W ≠ some (.w5 p x m) := fun m e => by simp [e, PC.bf] at hW
  have e6 : ∀ m, W ≠ some (.w6 p x m) := fun m e => by simp [e, PC.bf] at hW
  have e7 : ∀ m, W ≠ some (.w7 p x m) := fun m e => by simp [e, PC.bf] at hW
  have e8 : ∀ m, W ≠ some (.w8 p x m) := fun m e => by simp [e, PC.bf] at hW
  have e9 : ∀ m, W ≠ some (.w9 p x m) := fun m e => by simp [e, PC.bf] at hW
  cases res <;> core h

/-! ## The steps of the reader -/

theorem Core.r4b {dl : Bool} {i n : Nat} (hd : Ev.dialEnd p true ∈ g.log)
    (h : Core g W F (some (.r4 p x.other dl i)) p x)
    (hn : ((g.sock p x.other).chans i).buf = some n) :
    Core (g.upd p x.other fun s => s.setChan i { s.chans i with buf := none }) W F (some (.r5 p x.other n)) p x := by
  core h

theorem Core.r5 {n : Nat} (hd : Ev.dialEnd p true ∈ g.log)
    (h : Core g W F (some (.r5 p x.other n)) p x) :
    Core (g.ev (.copied p x.other ((g.sock p x).arr.take n))) W F (some (.r6 p x.other)) p x := by
  core h

theorem Core.r6a (hd : Ev.dialEnd p true ∈ g.log)
    (h : Core g W F (some (.r6 p x.other)) p x) (hr : (g.sock p x.other).recv = .waiting) :
    Core ((g.upd p x.other fun s => { s with recv := .got true, readLock := false }).ev (.readEnd p x.other .ok))
      W F none p x := by
  have := buf_cases (g.sock p x.other).chan
  core h

theorem Core.r6b (hd : Ev.dialEnd p true ∈ g.log)
    (h : Core g W F (some (.r6 p x.other)) p x) :
    Core (g.upd p x.other fun s => { s with parked := true }) W F (some (.r7 p x.other)) p x := by
  have := buf_cases (g.sock p x.other).chan
  core h

end
end Webwire.Mem
