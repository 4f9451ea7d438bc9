import Verif.Spec.Memchan

/-!
# memchan: basic facts, and the invariant of one direction of a pair
-/

set_option autoImplicit false

namespace Webwire.Mem

@[simp] theorem Side.other_other (x : Side) : x.other.other = x := by cases x <;> rfl
@[simp] theorem Side.other_ne (x : Side) : x.other ≠ x := by cases x <;> simp [Side.other]
@[simp] theorem Side.ne_other (x : Side) : x ≠ x.other := by cases x <;> simp [Side.other]
theorem Side.eq_or (x y : Side) : x = y ∨ x = y.other := by cases x <;> cases y <;> simp [Side.other]

section
variable (g : G) (p q : Nat) (x y : Side) (f : Sock → Sock) (b : Bool) (e : Ev) (w : String)

@[simp] theorem sock_upd : (g.upd p x f).sock q y = if q = p ∧ y = x then f (g.sock q y) else g.sock q y := by
  simp only [G.upd, G.sock]; split <;> rename_i h
  · subst h; by_cases hy : y = x <;> simp [hy]
  · simp [h]
@[simp] theorem conn_upd : (g.upd p x f).connected q = g.connected q := by
  simp only [G.upd, G.connected]; split <;> simp_all
@[simp] theorem listed_upd : (g.upd p x f).listed q = g.listed q := by
  simp only [G.upd, G.listed]; split <;> simp_all
@[simp] theorem log_upd : (g.upd p x f).log = g.log := rfl
@[simp] theorem active_upd : (g.upd p x f).active = g.active := rfl
@[simp] theorem shut_upd : (g.upd p x f).shuttingDown = g.shuttingDown := rfl
@[simp] theorem crashed_upd : (g.upd p x f).crashed = g.crashed := rfl

@[simp] theorem sock_setConn : (g.setConn p b).sock q y = g.sock q y := by
  simp only [G.setConn, G.sock]; split <;> simp_all
@[simp] theorem conn_setConn : (g.setConn p b).connected q = if q = p then b else g.connected q := by
  simp only [G.setConn, G.connected]; split <;> simp_all
@[simp] theorem listed_setConn : (g.setConn p b).listed q = g.listed q := by
  simp only [G.setConn, G.listed]; split <;> simp_all
@[simp] theorem log_setConn : (g.setConn p b).log = g.log := rfl
@[simp] theorem active_setConn : (g.setConn p b).active = g.active := rfl
@[simp] theorem shut_setConn : (g.setConn p b).shuttingDown = g.shuttingDown := rfl
@[simp] theorem crashed_setConn : (g.setConn p b).crashed = g.crashed := rfl

@[simp] theorem sock_setListed : (g.setListed p b).sock q y = g.sock q y := by
  simp only [G.setListed, G.sock]; split <;> simp_all
@[simp] theorem conn_setListed : (g.setListed p b).connected q = g.connected q := by
  simp only [G.setListed, G.connected]; split <;> simp_all
@[simp] theorem listed_setListed : (g.setListed p b).listed q = if q = p then b else g.listed q := by
  simp only [G.setListed, G.listed]; split <;> simp_all
@[simp] theorem log_setListed : (g.setListed p b).log = g.log := rfl
@[simp] theorem active_setListed : (g.setListed p b).active = g.active := rfl
@[simp] theorem shut_setListed : (g.setListed p b).shuttingDown = g.shuttingDown := rfl
@[simp] theorem crashed_setListed : (g.setListed p b).crashed = g.crashed := rfl

@[simp] theorem sock_ev : (g.ev e).sock q y = g.sock q y := rfl
@[simp] theorem conn_ev : (g.ev e).connected q = g.connected q := rfl
@[simp] theorem listed_ev : (g.ev e).listed q = g.listed q := rfl
@[simp] theorem log_ev : (g.ev e).log = g.log ++ [e] := rfl
@[simp] theorem active_ev : (g.ev e).active = g.active := rfl
@[simp] theorem shut_ev : (g.ev e).shuttingDown = g.shuttingDown := rfl
@[simp] theorem crashed_ev : (g.ev e).crashed = g.crashed := rfl

@[simp] theorem sock_crash : (g.crash w).sock q y = g.sock q y := rfl
@[simp] theorem conn_crash : (g.crash w).connected q = g.connected q := rfl
@[simp] theorem listed_crash : (g.crash w).listed q = g.listed q := rfl
@[simp] theorem log_crash : (g.crash w).log = g.log := rfl
@[simp] theorem active_crash : (g.crash w).active = g.active := rfl
@[simp] theorem shut_crash : (g.crash w).shuttingDown = g.shuttingDown := rfl
@[simp] theorem crashed_crash : (g.crash w).crashed = some w := rfl

@[simp] theorem sock_stop : g.stop.sock q y = g.sock q y := rfl
@[simp] theorem conn_stop : g.stop.connected q = g.connected q := rfl
@[simp] theorem listed_stop : g.stop.listed q = g.listed q := rfl
@[simp] theorem log_stop : g.stop.log = g.log := rfl
@[simp] theorem active_stop : g.stop.active = false := rfl
@[simp] theorem shut_stop : g.stop.shuttingDown = g.shuttingDown := rfl
@[simp] theorem crashed_stop : g.stop.crashed = g.crashed := rfl

@[simp] theorem sock_refuse : g.refuse.sock q y = g.sock q y := rfl
@[simp] theorem conn_refuse : g.refuse.connected q = g.connected q := rfl
@[simp] theorem listed_refuse : g.refuse.listed q = g.listed q := rfl
@[simp] theorem log_refuse : g.refuse.log = g.log := rfl
@[simp] theorem active_refuse : g.refuse.active = g.active := rfl
@[simp] theorem shut_refuse : g.refuse.shuttingDown = true := rfl
@[simp] theorem crashed_refuse : g.refuse.crashed = g.crashed := rfl
end

/-! ## The steps, case by case -/

/-- `act`, as a relation. -/
inductive Acts (g : G) : PC → G → List PC → Prop
  | w1 (p x chunks) : (g.sock p x).writerLock = false →
      Acts g (.w1 p x chunks) (g.upd p x fun s => { s with writerLock := true }) [.w2 p x chunks]
  | w2a (p x chunks) : g.connected p = true → Acts g (.w2 p x chunks) g [.w3 p x chunks.flatten chunks]
  | w2b (p x chunks) : g.connected p = false → Acts g (.w2 p x chunks)
      ((g.upd p x fun s => { s with writerLock := false }).ev (.writeEnd p x chunks.flatten .disconnected)) []
  | w3a (p x msg) : Acts g (.w3 p x msg []) g [.w4 p x msg]
  | w3b (p x msg c chunks) : (g.sock p x).bufLock = false → (g.sock p x).arr.length - (g.sock p x).len < c.length →
      Acts g (.w3 p x msg (c :: chunks)) (g.upd p x fun s => { s with len := 0 }) [.w4 p x msg]
  | w3c (p x msg c chunks) : (g.sock p x).bufLock = false → ¬(g.sock p x).arr.length - (g.sock p x).len < c.length →
      Acts g (.w3 p x msg (c :: chunks)) (g.upd p x fun s => s.put c) [.w3 p x msg chunks]
  | w4a (p x msg) : (g.sock p x).bufLock = false → (g.sock p x).len < 1 →
      Acts g (.w4 p x msg) ((g.upd p x fun s => { s with bufLock := true }).ev (.writeEnd p x msg .noData)) []
  | w4b (p x msg) : (g.sock p x).bufLock = false → ¬(g.sock p x).len < 1 →
      Acts g (.w4 p x msg) (g.upd p x fun s => { s with bufLock := true }) [.w5 p x msg]
  | w5a (p x msg) : g.connected p = true → Acts g (.w5 p x msg) g [.w6 p x msg]
  | w5b (p x msg) : g.connected p = false →
      Acts g (.w5 p x msg) (g.upd p x fun s => { s with writerLock := false }) [.w10 p x msg .disconnected]
  | w6 (p x msg) : (g.sock p x.other).readerLock = false →
      Acts g (.w6 p x msg) (g.upd p x.other fun s => { s with readerLock := true }) [.w7 p x msg]
  | w7a (p x msg) : (g.sock p x.other).chan.closed = true →
      Acts g (.w7 p x msg) (g.crash "send on closed channel") [.w7 p x msg]
  | w7b (p x msg) : (g.sock p x.other).chan.closed = false → (g.sock p x.other).chan.buf = none →
      Acts g (.w7 p x msg) ((g.upd p x.other fun s =>
        { s.setChan s.gen { buf := some (g.sock p x).len } with readerLock := false }).ev (.flushed p x msg))
        [.w8 p x msg]
  | w8a (p x msg) : (g.sock p x.other).recv = .absent → (g.sock p x.other).parked = true →
      Acts g (.w8 p x msg) (g.upd p x.other fun s => { s with parked := false, recv := .got true }) [.w9 p x msg]
  | w8b (p x msg) : (g.sock p x.other).recv = .absent → (g.sock p x.other).parked = false →
      Acts g (.w8 p x msg) (g.upd p x.other fun s => { s with recv := .waiting }) [.w9 p x msg]
  | w9 (p x msg ok) : (g.sock p x.other).recv = .got ok →
      Acts g (.w9 p x msg)
        ((g.upd p x.other fun s => { s with recv := .absent }).upd p x fun s => { s with writerLock := false })
        [.w10 p x msg (if ok then .ok else .closed)]
  | w10 (p x msg res) : Acts g (.w10 p x msg res)
      ((g.upd p x fun s => { s with len := 0, bufLock := false }).ev (.writeEnd p x msg res)) []
  | r1 (p x dl) : (g.sock p x).readLock = false →
      Acts g (.r1 p x dl) (g.upd p x fun s => { s with readLock := true }) [.r2 p x dl]
  | r2a (p x dl) : g.connected p = true → Acts g (.r2 p x dl) g [.r3 p x dl]
  | r2b (p x dl) : g.connected p = false → Acts g (.r2 p x dl)
      ((g.upd p x fun s => { s with readLock := false }).ev (.readEnd p x .closed)) []
  | r3 (p x dl) : (g.sock p x).readerLock = false → Acts g (.r3 p x dl) g [.r4 p x dl (g.sock p x).gen]
  | r4a (p x i) : Acts g (.r4 p x true i) g [.c1 p x (.read .timeout)]
  | r4b (p x dl i n) : ((g.sock p x).chans i).buf = some n → Acts g (.r4 p x dl i)
      (g.upd p x fun s => s.setChan i { s.chans i with buf := none }) [.r5 p x n]
  | r4c (p x dl i) : ((g.sock p x).chans i).buf = none → ((g.sock p x).chans i).closed = true →
      Acts g (.r4 p x dl i) g [.c1 p x (.read .closed)]
  | r5 (p x n) : Acts g (.r5 p x n) (g.ev (.copied p x ((g.sock p x.other).arr.take n))) [.r6 p x]
  | r6a (p x) : (g.sock p x).recv = .waiting → Acts g (.r6 p x)
      ((g.upd p x fun s => { s with recv := .got true, readLock := false }).ev (.readEnd p x .ok)) []
  | r6b (p x) : (g.sock p x).recv ≠ .waiting → Acts g (.r6 p x) (g.upd p x fun s => { s with parked := true }) [.r7 p x]
  | r7 (p x) : (g.sock p x).parked = false → Acts g (.r7 p x)
      ((g.upd p x fun s => { s with readLock := false }).ev (.readEnd p x .ok)) []
  | c1a (p x k) : g.connected p = true → Acts g (.c1 p x k) (g.setConn p false) [.c2 p x k]
  | c1u (p x) : g.connected p = false → Acts g (.c1 p x .user) (g.ev (.closeEnd p x)) []
  | c1r (p x res) : g.connected p = false → Acts g (.c1 p x (.read res))
      ((g.upd p x fun s => { s with readLock := false }).ev (.readEnd p x res)) []
  | c1s (p x) : g.connected p = false → Acts g (.c1 p x (.stop [])) (g.ev (.stopEnd true)) []
  | c1n (p x q rest) : g.connected p = false → Acts g (.c1 p x (.stop (q :: rest))) g [.c1 q .srv (.stop rest)]
  | c2a (p x k) : (g.sock p x.other).readerLock = false → (g.sock p x.other).chan.closed = true →
      Acts g (.c2 p x k) (g.crash "close of closed channel") [.c2 p x k]
  | c2b (p x k) : (g.sock p x.other).readerLock = false → (g.sock p x.other).chan.closed = false →
      Acts g (.c2 p x k) (g.upd p x.other fun s => s.setChan s.gen { s.chan with closed := true }) [.c3 p x k]
  | c3a (p x k) : (g.sock p x.other).recv = .waiting →
      Acts g (.c3 p x k) (g.upd p x.other fun s => { s with recv := .got false }) [.c4 p x k]
  | c3b (p x k) : (g.sock p x.other).recv ≠ .waiting → Acts g (.c3 p x k) g [.c4 p x k]
  | c4a (p x k) : (g.sock p x).recv = .waiting →
      Acts g (.c4 p x k) (g.upd p x fun s => { s with recv := .got false }) [.c5 p x k]
  | c4b (p x k) : (g.sock p x).recv ≠ .waiting → Acts g (.c4 p x k) g [.c5 p x k]
  | c5a (p x k) : (g.sock p x).readerLock = false → (g.sock p x).chan.closed = true →
      Acts g (.c5 p x k) (g.crash "close of closed channel") [.c5 p x k]
  | c5b (p x k) : (g.sock p x).readerLock = false → (g.sock p x).chan.closed = false →
      Acts g (.c5 p x k) (g.upd p x fun s => s.setChan s.gen { s.chan with closed := true }) [.c6 p x k]
  | c6u (p x) : Acts g (.c6 p x .user) ((g.setListed p false).ev (.closeEnd p x)) []
  | c6r (p x res) : Acts g (.c6 p x (.read res))
      (((g.setListed p false).upd p x fun s => { s with readLock := false }).ev (.readEnd p x res)) []
  | c6s (p x) : Acts g (.c6 p x (.stop [])) ((g.setListed p false).ev (.stopEnd true)) []
  | c6n (p x q rest) : Acts g (.c6 p x (.stop (q :: rest))) (g.setListed p false) [.c1 q .srv (.stop rest)]
  | d1a (p) : Acts g (.d1 p) (g.ev (.dialEnd p false)) []
  | d1b (p) : Acts g (.d1 p) g [.d2 p]
  | d2a (p) : g.connected p = true → Acts g (.d2 p) (g.ev (.dialEnd p false)) []
  | d2b (p) : g.connected p = false → Acts g (.d2 p) (g.setConn p true) [.d3 p]
  | d3 (p) : (g.sock p .clt).readerLock = false → Acts g (.d3 p) (g.upd p .clt Sock.reset) [.d4 p]
  | d4 (p) : (g.sock p .srv).readerLock = false → Acts g (.d4 p) (g.upd p .srv Sock.reset) [.d5 p]
  | d5a (p) : g.shuttingDown = true → Acts g (.d5 p) (g.ev (.dialEnd p false)) []
  | d5b (p) : g.shuttingDown = false → Acts g (.d5 p) g [.d6 p]
  | d6a (p) : g.active = true → Acts g (.d6 p) g [.d7 p]
  | d6b (p) : g.active = false → Acts g (.d6 p) (g.ev (.dialEnd p false)) []
  | d7 (p) : Acts g (.d7 p) ((g.setListed p true).ev (.dialEnd p true)) []
  | s1a : g.active = true → Acts g .s1 g.stop [.s2]
  | s1b : g.active = false → Acts g .s1 (g.ev (.stopEnd false)) []
  | s2a : Snapshot g [] → Acts g .s2 (g.ev (.stopEnd true)) []
  | s2b (p rest) : Snapshot g (p :: rest) → Acts g .s2 g [.c1 p .srv (.stop rest)]
  | v1a : g.active = true → Acts g .v1 g [.v2]
  | v1b : g.active = false → Acts g .v1 (g.ev (.serveEnd false)) []
  | v2 : g.active = false → Acts g .v2 (g.ev (.serveEnd true)) []

theorem acts_of_act {g g' : G} {ch : Bool} {conns : List Nat} {pc : PC} {pcs : List PC}
    (h : act g ch conns pc = some (g', pcs)) (hs : pc = .s2 → Snapshot g conns) : Acts g pc g' pcs := by
  cases pc
  case c1 p x k =>
    cases k with
    | stop l => cases l <;> grind [act, goOn, Acts]
    | _ => grind [act, goOn, Acts]
  case c6 p x k =>
    cases k with
    | stop l => cases l <;> grind [act, goOn, Acts]
    | _ => grind [act, goOn, Acts]
  case w3 p x msg chunks => cases chunks <;> grind [act, Acts]
  case s2 =>
    have := hs rfl
    cases conns <;> grind [act, Acts]
  case w7 => grind [act, Acts, Option.not_isSome_iff_eq_none]
  case w9 => grind [act, Acts]
  all_goals grind [act, Acts]

end Webwire.Mem
