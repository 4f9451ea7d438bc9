import Verif.Props.MemchanRace

/-!
# C96: the accesses of a step are what the step does

C96 is about the accesses `PC.accs` lists. These theorems tie the list to what the steps of the model do: a step changes no
variable but those it is listed to write (`C96_writes`), and what it does depends on no variable but those it is listed to
access (`C96_reads`). Timers have no value in the model, so nothing is said about them.
-/

set_option autoImplicit false

namespace Webwire.Mem

/-- The variable has the same value in both states. -/
def Loc.Same (g g' : G) : Loc → Prop
  | .arr p x => (g.sock p x).arr = (g'.sock p x).arr
  | .len p x => (g.sock p x).len = (g'.sock p x).len
  | .reader p x => (g.sock p x).gen = (g'.sock p x).gen
  | .timer _ _ => True
  | .conns => ∀ p, g.listed p = g'.listed p

theorem goOn_socks (g : G) (p : Nat) (x : Side) (k : Cont) (q : Nat) (y : Side) :
    ((goOn g p x k).1.sock q y).arr = (g.sock q y).arr ∧ ((goOn g p x k).1.sock q y).len = (g.sock q y).len ∧
    ((goOn g p x k).1.sock q y).gen = (g.sock q y).gen ∧ (goOn g p x k).1.listed q = g.listed q := by
  unfold goOn; split <;> simp <;> split <;> simp_all

/-- **C96, the writes**: a step changes no variable but those it is listed to write. -/
theorem C96_writes {g g' : G} {ch : Bool} {conns : List Nat} {pc : PC} {pcs : List PC}
    (h : act g ch conns pc = some (g', pcs)) (l : Loc) (hl : ∀ a ∈ pc.accs, a.loc = l → a.write = false) :
    l.Same g g' := by
  cases pc <;> simp only [act] at h
  case s2 => cases conns <;> simp at h <;> obtain ⟨rfl, -⟩ := h <;> cases l <;> simp [Loc.Same]
  case w3 p x m cs =>
    cases cs <;> simp only [PC.accs] at h hl
    · simp at h; obtain ⟨rfl, -⟩ := h; cases l <;> simp [Loc.Same]
    · split at h
      · cases h
      · split at h <;> simp at h <;> obtain ⟨rfl, -⟩ := h <;> cases l <;> simp_all [Loc.Same, Sock.put] <;> grind
  case w9 p x m =>
    split at h
    · simp at h; obtain ⟨rfl, -⟩ := h; cases l <;> simp [Loc.Same] <;> grind
    · cases h
  case c6 p x k =>
    simp only [Option.some.injEq] at h
    have := goOn_socks (g.setListed p false) p x k
    rw [h] at this
    cases l <;> simp_all [Loc.Same, PC.accs]
  case c1 p x k =>
    split at h
    · simp at h; obtain ⟨rfl, -⟩ := h; cases l <;> simp [Loc.Same]
    · simp at h
      have := goOn_socks g p x k
      rw [h] at this
      cases l <;> simp [Loc.Same, fun q y => this q y, fun q => (this q .srv).2.2.2]
  case r4 p x dl i =>
    split at h
    · simp at h; obtain ⟨rfl, -⟩ := h; cases l <;> simp [Loc.Same]
    · split at h
      · simp at h; obtain ⟨rfl, -⟩ := h; cases l <;> simp [Loc.Same, Sock.setChan] <;> grind
      · split at h
        · simp at h; obtain ⟨rfl, -⟩ := h; cases l <;> simp [Loc.Same]
        · cases h
  all_goals
    simp only [PC.accs] at hl
    repeat' split at h
  all_goals simp at h
  all_goals
    obtain ⟨rfl, -⟩ := h
    cases l <;> simp [Loc.Same, Sock.setChan, Sock.reset] at hl ⊢ <;> grind

theorem G.ext' {g h : G} (h1 : ∀ p x, g.sock p x = h.sock p x) (h2 : ∀ p, g.connected p = h.connected p)
    (h3 : ∀ p, g.listed p = h.listed p) (h4 : g.active = h.active) (h5 : g.shuttingDown = h.shuttingDown)
    (h6 : g.crashed = h.crashed) (h7 : g.log = h.log) : g = h := by
  obtain ⟨a, b, c, d, e⟩ := g
  obtain ⟨a', b', c', d', e'⟩ := h
  simp only [G.mk.injEq]
  refine ⟨?_, h4, h5, h6, h7⟩
  funext p
  have := h2 p
  have := h3 p
  have h1 := h1 p
  simp only [G.sock, G.connected, G.listed] at *
  cases hp : a p; cases hp' : a' p
  simp_all
  funext x; exact h1 x

/-- The state with another value in the variable. -/
def G.poke (g : G) (d : Bytes) (n : Nat) (l : Nat → Bool) : Loc → G
  | .arr p x => g.upd p x fun s => { s with arr := d }
  | .len p x => g.upd p x fun s => { s with len := n }
  | .reader p x => g.upd p x fun s => { s with gen := n }
  | .timer _ _ => g
  | .conns => { g with pairs := fun p => { g.pairs p with listed := l p } }


section
variable (g : G) (d : Bytes) (n : Nat) (ls : Nat → Bool) (l : Loc) (q : Nat) (y : Side)

theorem poke_sock : (g.poke d n ls l).sock q y = match l with
    | .arr p x => if q = p ∧ y = x then { g.sock q y with arr := d } else g.sock q y
    | .len p x => if q = p ∧ y = x then { g.sock q y with len := n } else g.sock q y
    | .reader p x => if q = p ∧ y = x then { g.sock q y with gen := n } else g.sock q y
    | _ => g.sock q y := by
  cases l <;> simp [G.poke] <;> rfl

@[simp] theorem poke_writerLock : ((g.poke d n ls l).sock q y).writerLock = (g.sock q y).writerLock := by
  rw [poke_sock]; cases l <;> simp <;> split <;> rfl
@[simp] theorem poke_readLock : ((g.poke d n ls l).sock q y).readLock = (g.sock q y).readLock := by
  rw [poke_sock]; cases l <;> simp <;> split <;> rfl
@[simp] theorem poke_readerLock : ((g.poke d n ls l).sock q y).readerLock = (g.sock q y).readerLock := by
  rw [poke_sock]; cases l <;> simp <;> split <;> rfl
@[simp] theorem poke_bufLock : ((g.poke d n ls l).sock q y).bufLock = (g.sock q y).bufLock := by
  rw [poke_sock]; cases l <;> simp <;> split <;> rfl
@[simp] theorem poke_chans : ((g.poke d n ls l).sock q y).chans = (g.sock q y).chans := by
  rw [poke_sock]; cases l <;> simp <;> split <;> rfl
@[simp] theorem poke_recv : ((g.poke d n ls l).sock q y).recv = (g.sock q y).recv := by
  rw [poke_sock]; cases l <;> simp <;> split <;> rfl
@[simp] theorem poke_parked : ((g.poke d n ls l).sock q y).parked = (g.sock q y).parked := by
  rw [poke_sock]; cases l <;> simp <;> split <;> rfl
theorem poke_arr (h : ¬ Loc.arr q y = l) : ((g.poke d n ls l).sock q y).arr = (g.sock q y).arr := by
  rw [poke_sock]; cases l <;> simp <;> split <;> simp_all
theorem poke_len (h : ¬ Loc.len q y = l) : ((g.poke d n ls l).sock q y).len = (g.sock q y).len := by
  rw [poke_sock]; cases l <;> simp <;> split <;> simp_all
theorem poke_gen (h : ¬ Loc.reader q y = l) : ((g.poke d n ls l).sock q y).gen = (g.sock q y).gen := by
  rw [poke_sock]; cases l <;> simp <;> split <;> simp_all
@[simp] theorem poke_connected : (g.poke d n ls l).connected q = g.connected q := by
  cases l <;> simp [G.poke] <;> rfl
@[simp] theorem poke_active : (g.poke d n ls l).active = g.active := by cases l <;> simp [G.poke]
@[simp] theorem poke_shuttingDown : (g.poke d n ls l).shuttingDown = g.shuttingDown := by cases l <;> simp [G.poke]
@[simp] theorem poke_crash (w : String) : (g.poke d n ls l).crash w = (g.crash w).poke d n ls l := by cases l <;> rfl
@[simp] theorem poke_ev (e : Ev) : (g.poke d n ls l).ev e = (g.ev e).poke d n ls l := by cases l <;> rfl
@[simp] theorem poke_stop : (g.poke d n ls l).stop = g.stop.poke d n ls l := by cases l <;> rfl
@[simp] theorem poke_setConn (b : Bool) : (g.poke d n ls l).setConn q b = (g.setConn q b).poke d n ls l := by
  cases l
  case timer => rfl
  case conns => simp [G.poke, G.setConn]; grind
  all_goals apply G.ext' <;> simp [G.poke]

theorem poke_setListed (b : Bool) (h : ¬ Loc.conns = l) :
    (g.poke d n ls l).setListed q b = (g.setListed q b).poke d n ls l := by
  cases l
  case timer => rfl
  case conns => simp at h
  all_goals apply G.ext' <;> simp [G.poke]

theorem poke_upd (f : Sock → Sock) (h1 : l = .arr q y → ∀ s, f { s with arr := d } = { f s with arr := d })
    (h2 : l = .len q y → ∀ s, f { s with len := n } = { f s with len := n })
    (h3 : l = .reader q y → ∀ s, f { s with gen := n } = { f s with gen := n }) :
    (g.poke d n ls l).upd q y f = (g.upd q y f).poke d n ls l := by
  cases l
  case timer => rfl
  case conns => simp [G.poke, G.upd]; grind
  all_goals apply G.ext' <;> simp [G.poke] <;> grind

end

/-- **C96, the reads**: what a step does depends on no variable but those it is listed to access. With any other value in
another variable it waits or goes on as before, makes the same changes, and leaves that value there. -/
theorem C96_reads (g : G) (ch : Bool) (conns : List Nat) (pc : PC) (l : Loc) (hl : ∀ a ∈ pc.accs, a.loc ≠ l)
    (d : Bytes) (n : Nat) (ls : Nat → Bool) :
    act (g.poke d n ls l) ch conns pc = (act g ch conns pc).map fun r => (r.1.poke d n ls l, r.2) := by
  have go : ∀ g p x k, goOn (G.poke g d n ls l) p x k = ((goOn g p x k).1.poke d n ls l, (goOn g p x k).2) := by
    intro g p x k
    unfold goOn
    split <;> simp
    rw [poke_upd, poke_ev] <;> simp
  cases pc
  case c6 p x k =>
    simp [PC.accs] at hl
    simp [act, poke_setListed, hl, go]
  case w3 p x m cs =>
    cases cs with
    | nil => simp [act]
    | cons c cs =>
      simp [PC.accs] at hl
      simp only [act, poke_bufLock, poke_len _ _ _ _ _ _ _ hl.1, poke_arr _ _ _ _ _ _ _ hl.2]
      split
      · rfl
      · split <;> simp <;> rw [poke_upd] <;> simp_all [Sock.put] <;> grind
  case s2 => cases conns <;> simp [act]
  case r4 p x dl i =>
    simp only [act, poke_chans]
    split
    · simp
    · split
      · simp; rw [poke_upd] <;> simp [Sock.setChan]
      · split <;> simp
  case w7 p x m =>
    simp [PC.accs] at hl
    simp only [act, Sock.chan, poke_chans, poke_gen _ _ _ _ _ _ _ hl.2, poke_len _ _ _ _ _ _ _ hl.1]
    split
    · simp [*]
    · split
      · simp [*]
      · simp [*]; rw [poke_upd, poke_ev] <;> simp_all [Sock.setChan] <;> grind
  case w9 p x m =>
    simp only [act, poke_recv]
    split
    · simp; rw [poke_upd, poke_upd] <;> simp
    · rfl
  all_goals simp [PC.accs] at hl
  all_goals simp [act, go, Sock.chan, poke_len, poke_gen, poke_arr, poke_setListed, hl]
  all_goals repeat' split
  all_goals first | rfl | skip
  all_goals try simp_all
  all_goals rw [poke_upd] <;> simp [Sock.setChan, Sock.reset] <;> grind

/-- A reader's copy is what the buffer of the other side has at that moment, and it is listed to read that buffer; it is not
listed to access the length of the buffer, and does the same whatever that is. -/
example : ∃ s, Reachable 4 s ∧ PC.r5 0 .clt 1 ∈ s.threads ∧
    (act s.g false [] (.r5 0 .clt 1)).map (fun r => r.1.log.getLast?) = some (some (.copied 0 .clt [1])) ∧
    (act (s.g.poke [7, 7, 7, 7] 0 (fun _ => false) (.arr 0 .srv)) false [] (.r5 0 .clt 1)).map (fun r => r.1.log.getLast?)
      = some (some (.copied 0 .clt [7])) ∧
    (act (s.g.poke [] 3 (fun _ => false) (.len 0 .srv)) false [] (.r5 0 .clt 1)).map (fun r => r.1.log.getLast?)
      = some (some (.copied 0 .clt [1])) := by
  have hp : ∃ s, play (fun _ _ => true) (init 4) crowded = some s ∧
    s.threads = [.d7 2, .c6 1 .srv .user, .r5 0 .clt 1, .w1 0 .srv [[2]], .w9 0 .srv [1]] ∧
    (act s.g false [] (.r5 0 .clt 1)).map (fun r => r.1.log.getLast?) = some (some (.copied 0 .clt [1])) ∧
    (act (s.g.poke [7, 7, 7, 7] 0 (fun _ => false) (.arr 0 .srv)) false [] (.r5 0 .clt 1)).map (fun r => r.1.log.getLast?)
      = some (some (.copied 0 .clt [7])) ∧
    (act (s.g.poke [] 3 (fun _ => false) (.len 0 .srv)) false [] (.r5 0 .clt 1)).map (fun r => r.1.log.getLast?)
      = some (some (.copied 0 .clt [1])) := ⟨_, rfl, rfl, rfl, rfl, rfl⟩
  obtain ⟨s, hs, h1, h2⟩ := hp
  exact ⟨s, play_from (fun _ _ _ => trivial) _ .start hs, by simp [h1], h2⟩

/-- A step that writes: the length of the buffer is not what it was. -/
example : ∃ s g' pcs, Reachable 4 s ∧ PC.w3 0 .srv [1] [[1]] ∈ s.threads ∧
    act s.g false [] (.w3 0 .srv [1] [[1]]) = some (g', pcs) ∧ ¬ (Loc.len 0 .srv).Same s.g g' ∧ (Loc.len 0 .clt).Same s.g g' := by
  have hp : ∃ s g' pcs, play (fun _ _ => true) (init 4) (.dial 0 :: Cmd.run 7 ++ .write 0 .srv [[1]] :: Cmd.run 2) = some s ∧
    s.threads = [.w3 0 .srv [1] [[1]]] ∧ act s.g false [] (.w3 0 .srv [1] [[1]]) = some (g', pcs) ∧
    (s.g.sock 0 .srv).len = 0 ∧ (g'.sock 0 .srv).len = 1 ∧ (s.g.sock 0 .clt).len = (g'.sock 0 .clt).len :=
    ⟨_, _, _, rfl, rfl, rfl, rfl, rfl, rfl⟩
  obtain ⟨s, g', pcs, hs, h1, h2, h3, h4, h5⟩ := hp
  exact ⟨s, g', pcs, play_from (fun _ _ _ => trivial) _ .start hs, by simp [h1], h2, by simp [Loc.Same, h3, h4], h5⟩

end Webwire.Mem
