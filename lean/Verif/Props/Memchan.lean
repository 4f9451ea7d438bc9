import Verif.Proofs.Memchan9

/-!
# C52–C56: the memchan transport

The sockets of a pair, the goroutines writing to them, reading from them, dialling and closing them, and the transport
(`Model/Memchan`). All theorems are about any number of pairs and goroutines in every interleaving.
-/

set_option autoImplicit false

namespace Webwire.Mem

/-! ## C52: messages are delivered intact, in order and once -/

/-- What C52 asks for: what a side read is a prefix of what the other handed over, and everything that was written
successfully has been read before the write returned. -/
def C52_full : Prop := ∀ size s, Reachable size s → ∀ p x,
  oks p x s.g.log <+: copies p x.other s.g.log ∧ copies p x.other s.g.log <+: flushes p x s.g.log

/-- Dial; write `1`; a reader takes it, but does not copy it yet; close, so the writer gives up; dial again; write `2`
into the same buffer; now the reader copies. -/
def mixed : List Cmd :=
  .dial 0 :: Cmd.run 7 ++ .write 0 .srv [[1]] :: Cmd.run 9 ++ .read 0 .clt :: Cmd.run 4 ++
  .close 0 .srv :: Cmd.run 6 ++ [.go 1, .go 1] ++ .dial 0 :: Cmd.run 7 ++ .write 0 .srv [[2]] :: Cmd.run 3 ++ [.go 1]

/-- **C52 is violated**: a reader that is slower than closing and dialling again returns bytes of a message nobody has
sent yet, instead of the one it took. -/
theorem C52_violated : ¬ C52_full := by
  intro h
  have hp : ∃ s, play (fun _ _ => true) (init 4) mixed = some s ∧ copies 0 .clt s.g.log = [[2]] ∧
    flushes 0 .srv s.g.log = [[1]] := ⟨_, rfl, rfl, rfl⟩
  obtain ⟨s, hs, h1, h2⟩ := hp
  have := (h 4 s (play_from (fun _ _ _ => trivial) mixed .start hs) 0 .srv).2
  simp [Side.other, h1, h2] at this

/-- **C52, the part that holds**: as long as no pair is dialled again (`OneLife`), what a side reads is exactly what the
other side handed over, in order, once, and whole; a write that reported success has been read, and at most one message
is in flight. Any number of writers and readers may run concurrently with closing and shutting down. Missing: pairs dialled
again while an old reader has not copied its message, for which it is false. -/
theorem C52_partial {size : Nat} {s : State} (h : ReachableIf size OneLife s) (p : Nat) (x : Side) :
    oks p x s.g.log <+: copies p x.other s.g.log ∧ copies p x.other s.g.log <+: flushes p x s.g.log ∧
    (flushes p x s.g.log).length ≤ (oks p x s.g.log).length + 1 :=
  ((From.oneLife (fun _ _ h => h) h).core p x).delivered

/-- Two writers, one of them in two parts, and a reader: the messages arrive whole. -/
def twoWriters : List Cmd :=
  .dial 0 :: Cmd.run 7 ++ .write 0 .srv [[1], [2]] :: Cmd.run 3 ++ .write 0 .srv [[3]] :: Cmd.run 0 ++
  -- the first one goes on, the second one waits
  [.go 1, .go 1, .go 1, .go 1, .go 1, .go 1, .go 1] ++
  .read 0 .clt :: Cmd.run 6 ++ [.go 1, .go 1] ++ Cmd.run 9 ++ .read 0 .clt :: Cmd.run 6 ++ Cmd.run 2

example : ∃ s, ReachableIf 4 OneLife s ∧ oks 0 .srv s.g.log = [[1, 2], [3]] ∧ copies 0 .clt s.g.log = [[1, 2], [3]] := by
  have hp : ∃ s, play oneLife (init 4) twoWriters = some s ∧ oks 0 .srv s.g.log = [[1, 2], [3]] ∧
    copies 0 .clt s.g.log = [[1, 2], [3]] := ⟨_, rfl, rfl, rfl⟩
  obtain ⟨s, hs, h1, h2⟩ := hp
  exact ⟨s, play_from oneLife_ok twoWriters .start hs, h1, h2⟩

/-- C52, for every history: nobody ever reads a message that is longer than the buffer of the transport. -/
theorem C52_fits {size : Nat} {s : State} (h : Reachable size s) (p : Nat) (x : Side) (m : Bytes)
    (hm : m ∈ copies p x s.g.log) : m.length ≤ size := by
  obtain ⟨e, he, hc⟩ := List.mem_filterMap.mp hm
  cases e <;> simp [Ev.copyOf] at hc
  obtain ⟨⟨rfl, rfl⟩, rfl⟩ := hc
  exact (sized h).read _ _ _ he

/-- Of a message of three bytes and one of two, only the latter fits a buffer of two bytes. -/
example : ∃ s, Reachable 2 s ∧ Ev.writeEnd 0 .srv [1, 2, 3] .noData ∈ s.g.log ∧ copies 0 .clt s.g.log = [] ∧
    ∃ s', Reachable 2 s' ∧ copies 0 .clt s'.g.log = [[1, 2]] := by
  have hp : ∃ s, play (fun _ _ => true) (init 2) (.dial 0 :: Cmd.run 7 ++ .write 0 .srv [[1, 2, 3]] :: Cmd.run 4) = some s ∧
    Ev.writeEnd 0 .srv [1, 2, 3] .noData ∈ s.g.log ∧ copies 0 .clt s.g.log = [] := ⟨_, rfl, by decide, rfl⟩
  have hp' : ∃ s, play (fun _ _ => true) (init 2) (.dial 0 :: Cmd.run 7 ++ .write 0 .srv [[1, 2]] :: Cmd.run 9 ++
    .read 0 .clt :: Cmd.run 6) = some s ∧ copies 0 .clt s.g.log = [[1, 2]] := ⟨_, rfl, rfl⟩
  obtain ⟨s, hs, h1, h2⟩ := hp
  obtain ⟨s', hs', h3⟩ := hp'
  exact ⟨s, play_from (fun _ _ _ => trivial) _ .start hs, h1, h2, s', play_from (fun _ _ _ => trivial) _ .start hs', h3⟩

/-! ## C53: a failed write does not block the socket -/

/-- What C53 asks for: if no `WriteMsg*` call is in progress, except ones waiting for the writer, the next one gets the
writer. -/
def C53_full : Prop := ∀ size s, Reachable size s → ∀ p x,
  (∀ pc ∈ s.threads, pc.writes p x = true → pc.wantsWriter p x = true) →
  ∀ chunks ch conns, (act s.g ch conns (.w1 p x chunks)).isSome = true

/-- A message that is rejected before anything is written (for instance a name that is too long): both locks are kept. -/
def rejected : List Cmd := .dial 0 :: Cmd.run 7 ++ .write 0 .clt [] :: Cmd.run 4

/-- A message that is too long. -/
def oversize : List Cmd := .dial 0 :: Cmd.run 7 ++ .write 0 .clt [[1, 2, 3]] :: Cmd.run 4

/-- **C53 is violated**: after a rejected message the socket's writer is never available again. -/
theorem C53_violated : ¬ C53_full := by
  intro h
  have hp : ∃ s, play (fun _ _ => true) (init 2) rejected = some s ∧ s.threads = [] ∧
    act s.g false [] (.w1 0 .clt [[1]]) = none := ⟨_, rfl, rfl, rfl⟩
  obtain ⟨s, hs, h1, h2⟩ := hp
  have := h 2 s (play_from (fun _ _ _ => trivial) rejected .start hs) 0 .clt (by simp [h1]) [[1]] false []
  simp [h2] at this

/-- **C53, in detail**: once a write failed because nothing was written (a rejected message, or one that is too long), no
`GetWriter` on that socket ever returns again, whatever happens. -/
theorem C53_blocks_violated {size : Nat} {s s' : State} (h : Reachable size s) {p : Nat} {x : Side} {msg : Bytes}
    (hn : Ev.writeEnd p x msg .noData ∈ s.g.log) (h' : From (fun _ _ => True) s s') (chunks : List Bytes) (ch : Bool)
    (conns : List Nat) : act s'.g ch conns (.w1 p x chunks) = none := by
  have := noData_reachable h p x msg hn
  have := stuck_for_ever this.1 this.2 h'
  simp [act, this.1]

example : ∃ s, Reachable 2 s ∧ Ev.writeEnd 0 .clt [1, 2, 3] .noData ∈ s.g.log ∧ s.threads = [] := by
  have hp : ∃ s, play (fun _ _ => true) (init 2) oversize = some s ∧
    (Ev.writeEnd 0 .clt [1, 2, 3] .noData ∈ s.g.log ∧ s.threads = []) :=
    ⟨_, rfl, by decide, rfl⟩
  obtain ⟨s, hs, h1⟩ := hp
  exact ⟨s, play_from (fun _ _ _ => trivial) oversize .start hs, h1⟩

/-- **C53, the part that holds**: if every message written is accepted and fits (`GoodWrites`), then whoever has the
writer is a goroutine inside `WriteMsg*`, past `GetWriter`; in particular after all calls returned, with or without an
error, the next one gets the writer. Dialling, closing and shutting down may happen at any time. Missing: messages that are
rejected or too long, for which it is false. -/
theorem C53_partial {size : Nat} {s : State} (h : ReachableIf size (GoodWrites size) s) (p : Nat) (x : Side)
    (hw : ∀ pc ∈ s.threads, pc.writes p x = true → pc.wantsWriter p x = true) (chunks : List Bytes) (ch : Bool)
    (conns : List Nat) : (act s.g ch conns (.w1 p x chunks)).isSome = true := by
  have hf := (Fits.reachable h p x).2
  cases hl : (s.g.sock p x).writerLock
  · simp [act, hl]
  · obtain ⟨a, ha, hwr⟩ := hf.heldW hl
    have := hw a ha (by cases a <;> simp_all [PC.wr, PC.writes])
    cases a <;> simp_all [PC.wr, PC.wantsWriter]

/-- A write that fails because the socket was closed meanwhile. -/
def failedWrite : List Cmd :=
  .dial 0 :: Cmd.run 7 ++ .write 0 .clt [[1]] :: Cmd.run 9 ++ .close 0 .srv :: Cmd.run 6 ++ Cmd.run 2

example : ∃ s, ReachableIf 2 (GoodWrites 2) s ∧ Ev.writeEnd 0 .clt [1] .closed ∈ s.g.log ∧ s.threads = [] := by
  have hp : ∃ s, play (fun _ l => match l with
      | .write _ _ chunks => decide (0 < chunks.flatten.length ∧ chunks.flatten.length ≤ 2)
      | _ => true) (init 2) failedWrite = some s ∧
    Ev.writeEnd 0 .clt [1] .closed ∈ s.g.log ∧ s.threads = [] := ⟨_, rfl, by decide, rfl⟩
  obtain ⟨s, hs, h1⟩ := hp
  refine ⟨s, play_from (fun s l h => ?_) failedWrite .start hs, h1⟩
  cases l <;> simp_all [GoodWrites]

/-! ## C54: a refused Dial leaves the socket disconnected -/

/-- What C54 asks for: if a `Dial` on a disconnected socket, with nobody else around, returns an error, the socket is
not connected. -/
def C54_full : Prop := ∀ size g p g', Reachable size ⟨g, []⟩ → g.connected p = false →
  From NoCall ⟨g, [.d1 p]⟩ ⟨g', []⟩ → g'.log = g.log ++ [.dialEnd p false] → g'.connected p = false

/-- **C54 is violated**: if the server is shutting down (or the transport is closed), `Dial` returns an error but the
socket reports being connected. -/
theorem C54_violated : ¬ C54_full := by
  intro h
  have hp : ∃ g, play (fun _ _ => true) (init 2) [.refuse] = some ⟨g, []⟩ ∧ g.connected 0 = false ∧ g.log = [] ∧
      ∃ g', play (fun _ l => match l with | .thread .. => true | _ => false) ⟨g, [.d1 0]⟩ (Cmd.run 5) =
        some ⟨g', []⟩ ∧ g'.connected 0 = true ∧ g'.log = [.dialEnd 0 false] :=
    ⟨_, rfl, rfl, rfl, _, rfl, rfl, rfl⟩
  obtain ⟨g, hs, h1, h2, g', hs', h3, h4⟩ := hp
  have := h 2 g 0 g' (play_from (fun _ _ _ => trivial) _ .start hs) h1
    (play_from (fun s l h => by cases l <;> simp_all [NoCall]) _ .start hs') (by rw [h4, h2]; rfl)
  rw [h3] at this; cases this

/-- **C54, in detail**: and then every later `Dial` fails, since the socket is "already connected". -/
theorem C54_stuck_violated {g g' : G} {p : Nat} (hc : g.connected p = true) (h : From NoCall ⟨g, [.d1 p]⟩ ⟨g', []⟩) :
    g'.connected p = true ∧ g'.log = g.log ++ [.dialEnd p false] := by
  have := dial_alone h
  simp [hc] at this
  exact ⟨this.2.2, this.1⟩

/-- **C54, the part that holds**: if neither the server is shutting down nor the transport is closed, a `Dial` that
returns an error on a disconnected socket (because `OnBeforeCreation` refused) leaves it disconnected, so it may be
dialled again; and one that succeeds leaves it connected and listed. Missing: refusals by a server shutting down or a closed
transport, for which it is false. -/
theorem C54_partial {g g' : G} {p : Nat} (hc : g.connected p = false) (ha : g.active = true)
    (hs : g.shuttingDown = false) (h : From NoCall ⟨g, [.d1 p]⟩ ⟨g', []⟩) :
    (g'.log = g.log ++ [.dialEnd p false] ∧ g'.connected p = false ∧ g'.listed p = g.listed p) ∨
    (g'.log = g.log ++ [.dialEnd p true] ∧ g'.connected p = true ∧ g'.listed p = true) := by
  have := dial_alone h
  simp [hc, ha, hs] at this
  rcases this with ⟨h1, h2, h3⟩ | h
  · exact .inl ⟨h1, h3, h2⟩
  · exact .inr h

example : ∃ g', From NoCall ⟨(init 2).g, [.d1 0]⟩ ⟨g', []⟩ ∧ g'.log = [.dialEnd 0 false] := by
  have hp : ∃ g', play (fun _ l => match l with | .thread .. => true | _ => false) ⟨(init 2).g, [.d1 0]⟩
    [.go 0 true] = some ⟨g', []⟩ ∧ g'.log = [.dialEnd 0 false] := ⟨_, rfl, rfl⟩
  obtain ⟨g', h1, h2⟩ := hp
  exact ⟨g', play_from (fun s l h => by cases l <;> simp_all [NoCall]) _ .start h1, h2⟩

/-! ## C55: Close is idempotent, symmetric and does not panic -/

/-- What C55 asks for: nothing panics; and after `Close` returned and nobody is inside `Close` any more, no goroutine
inside a call on that pair waits for ever: in every state reached afterwards in which it still is inside, some
continuation lets it go on. Already for pairs that are dialled once. -/
def C55_full : Prop := ∀ size s, ReachableIf size OneLife s → s.g.crashed = none ∧
  ∀ p x, Ev.closeEnd p x ∈ s.g.log → (∀ pc ∈ s.threads, pc.closes p = false) →
    ∀ pc ∈ s.threads, pc.uses p = true → ∃ s', From OneLife s s' ∧ pc ∉ s'.threads

/-- A writer saw the connected status, then the other side closes. -/
def panics : List Cmd :=
  .dial 0 :: Cmd.run 7 ++ .write 0 .srv [[1]] :: Cmd.run 6 ++ .close 0 .srv :: Cmd.run 2 ++ [.go 1, .go 1]

/-- **C55 is violated**: a writer that saw the status before `Close` sends on a closed channel, which panics. -/
theorem C55_violated : ¬ C55_full := by
  intro h
  have hp : ∃ s, play oneLife (init 4) panics = some s ∧ s.g.crashed = some "send on closed channel" :=
    ⟨_, rfl, rfl⟩
  obtain ⟨s, hs, h1⟩ := hp
  have := (h 4 s (play_from oneLife_ok panics .start hs)).1
  rw [h1] at this; cases this

/-- A writer handed over its message; then the other side closes, before the writer waits for the confirmation. -/
def hangs : List Cmd :=
  .dial 0 :: Cmd.run 7 ++ .write 0 .srv [[1]] :: Cmd.run 8 ++ .close 0 .clt :: Cmd.run 6 ++ [.go 0]

/-- **C55 is violated also without a panic**: a writer waits for a confirmation for ever, after `Close` returned and
whatever is called later. -/
theorem C55_hangs_violated : ∃ s, ReachableIf 4 OneLife s ∧ s.g.crashed = none ∧ Ev.closeEnd 0 .clt ∈ s.g.log ∧
    s.threads = [.w9 0 .srv [1]] ∧
    ∀ s', From OneLife s s' → .w9 0 .srv [1] ∈ s'.threads ∧ ∀ ch conns, act s'.g ch conns (.w9 0 .srv [1]) = none := by
  have hp : ∃ s, play oneLife (init 4) hangs = some s ∧ s.g.crashed = none ∧ Ev.closeEnd 0 .clt ∈ s.g.log ∧
    s.threads = [.w9 0 .srv [1]] ∧ s.g.connected 0 = false ∧ (s.g.sock 0 .clt).recv = .waiting ∧
    Ev.dialEnd 0 true ∈ s.g.log := ⟨_, rfl, rfl, by decide, rfl, rfl, rfl, by decide⟩
  obtain ⟨s, hs, h1, h2, h3, h4, h5, h6⟩ := hp
  refine ⟨s, play_from oneLife_ok hangs .start hs, h1, h2, h3, fun s' h' => ?_⟩
  have := hangs_for_ever (s := s) (p := 0) (m := [1]) (by simp [h3]) h4 h5 h6
    (by simp [h3, PC.busy, PC.dials]) h'
  exact ⟨this.1, fun ch conns => by simp [act, Side.other, this.2]⟩

/-- **C55, no panic, the part that holds**: if no pair is dialled twice and no `Close` begins while a writer of that pair
is between its check of the status and handing over its message (`CalmClose`), nothing ever panics. Missing: such a `Close`,
for which it is false. -/
theorem C55_no_panic_partial {size : Nat} {s : State} (h : ReachableIf size CalmClose s) : s.g.crashed = none :=
  (Shut.reachable (fun _ _ h => h) h).2.2

/-- **C55, the result of closing, the part that holds**: under the same assumption, after `Close` returned on either
side: both sides report being disconnected; further calls of `Close` on either side return at once and change nothing;
`Read` calls return the closure error. As soon as nobody is inside `Close`, the transport does not list the connection,
both channels are closed, and every reader that was waiting for a message can go on. -/
theorem C55_partial {size : Nat} {s : State} (h : ReachableIf size CalmClose s) {p : Nat} {x : Side}
    (hc : Ev.closeEnd p x ∈ s.g.log) :
    s.g.connected p = false ∧
    (∀ y ch conns, act s.g ch conns (.c1 p y .user) = some (s.g.ev (.closeEnd p y), [])) ∧
    (∀ y dl ch conns, ∃ g', act s.g ch conns (.r2 p y dl) = some (g', []) ∧
      g'.log = s.g.log ++ [.readEnd p y .closed]) ∧
    ((∀ pc ∈ s.threads, pc.closing p = false) →
      s.g.listed p = false ∧ (∀ y, (s.g.sock p y).chan.closed = true) ∧
      (∀ y dl ch conns, .r3 p y dl ∈ s.threads → (act s.g ch conns (.r3 p y dl)).isSome = true) ∧
      (∀ y dl i ch conns, .r4 p y dl i ∈ s.threads → (act s.g ch conns (.r4 p y dl i)).isSome = true)) := by
  have hone : ReachableIf size (fun s l => CalmClose s l) s := h
  have hconn := closeEnd_reachable (fun _ _ h => h.1) hone p x hc
  obtain ⟨-, hsh, -⟩ := Shut.reachable (fun _ _ h => h) h
  have hinv := From.oneLife (fun _ _ h => h.1) hone
  refine ⟨hconn.1, fun y ch conns => by simp [act, goOn, hconn.1],
    fun y dl ch conns => ⟨_, by simp only [act, hconn.1]; rfl, rfl⟩, fun hn => ?_⟩
  have hd := (hsh p).done hconn.2 hconn.1 hn
  refine ⟨hd.1, hd.2, fun y dl ch conns hm => ?_, fun y dl i ch conns hm => ?_⟩
  · cases hl : (s.g.sock p y).readerLock
    · simp [act, hl]
    · obtain ⟨a, ha, hs⟩ := readerLock_reachable hone p y hl
      have := (hsh p).over a ha (by cases a <;> simp_all [PC.sends, PC.handsOver])
      rw [hconn.1] at this; cases this
  · have hcore := hinv.core p y.other
    have hi : i = (s.g.sock p y).gen := by
      have h1 := hcore.gen dl i
      simp only [Side.other_other] at h1
      exact h1 (the_of_mem (hinv.locks p y).exclR hm (by simp [PC.rd]))
    subst hi
    have hcl := hd.2 y
    simp only [act, Sock.chan] at hcl ⊢
    split
    · rfl
    · split
      · rfl
      · simp

/-- A reader waits, a writer has been confirmed, then one side closes. -/
def calm : List Cmd :=
  .dial 0 :: Cmd.run 7 ++ .write 0 .srv [[1]] :: Cmd.run 9 ++ .read 0 .clt :: Cmd.run 6 ++ [.go 0, .go 0] ++
  .read 0 .clt :: Cmd.run 3 ++ .close 0 .srv :: Cmd.run 6

example : ∃ s, ReachableIf 4 CalmClose s ∧ Ev.closeEnd 0 .srv ∈ s.g.log ∧ s.threads = [.r4 0 .clt false 1] := by
  have hp : ∃ s, play calmClose (init 4) calm = some s ∧ Ev.closeEnd 0 .srv ∈ s.g.log ∧
    s.threads = [.r4 0 .clt false 1] := ⟨_, rfl, by decide, rfl⟩
  obtain ⟨s, hs, h1⟩ := hp
  exact ⟨s, play_from calmClose_ok calm .start hs, h1⟩

/-! ## C56: Shutdown closes every connection and refuses new ones -/

/-- What C56 asks for: after `Shutdown` returned, every registered connection is closed. -/
def C56_full : Prop := ∀ size s, Reachable size s → Ev.stopEnd true ∈ s.g.log →
  ∀ p, s.g.listed p = true → s.g.connected p = false

/-- **C56 is violated**: a `Dial` that saw the transport active registers its connection after `Shutdown` has looked at
them; it stays connected. -/
theorem C56_violated : ¬ C56_full := by
  intro h
  -- `Dial` is about to register; `Shutdown` has closed the transport
  have hp : ∃ g, play (fun _ _ => true) (init 2) (.dial 0 :: Cmd.run 6 ++ [.shutdown, .go 0]) =
      some ⟨g, [.s2, .d7 0]⟩ ∧ g.crashed = none ∧ (∀ p, g.listed p = false) ∧ g.connected 0 = true := by
    refine ⟨_, rfl, rfl, fun p => ?_, rfl⟩
    simp [init, G.listed, G.upd, G.setConn, G.stop]
    split <;> rfl
  obtain ⟨g, hs, h1, h2, h3⟩ := hp
  have r0 : Reachable 2 ⟨g, [.s2, .d7 0]⟩ := play_from (fun _ _ _ => trivial) _ .start hs
  have r1 : Reachable 2 ⟨g.ev (.stopEnd true), [.d7 0]⟩ :=
    .step _ (.thread .s2 false []) _ r0 trivial
      (Step.thread g _ [] [.d7 0] [] .s2 false [] h1 (fun _ => ⟨List.nodup_nil, by simp [h2]⟩) rfl)
  have r2 : Reachable 2 ⟨((g.ev (.stopEnd true)).setListed 0 true).ev (.dialEnd 0 true), []⟩ :=
    .step _ (.thread (.d7 0) false []) _ r1 trivial
      (Step.thread _ _ [] [] [] (.d7 0) false [] h1 (fun e => by cases e) rfl)
  have := h 2 _ r2 (by simp) 0 (by simp)
  simp [h3] at this

/-- **C56, the part that holds**: if no `Dial` overlaps with the closing of the transport, or comes after it
(`CalmStop`), then after `Shutdown` returned every registered connection is closed. Reads, writes and closing may
happen at any time. Missing: such a `Dial`, for which it is false. -/
theorem C56_partial {size : Nat} {s : State} (h : ReachableIf size CalmStop s) (hs : Ev.stopEnd true ∈ s.g.log) (p : Nat)
    (hl : s.g.listed p = true) : s.g.connected p = false := by
  have hst := Stopped.reachable h
  cases hc : s.g.connected p
  · rfl
  · obtain ⟨a, ha, hw⟩ := hst.will (hst.over hs).1 p hl hc
    have hn := (hst.over hs).2 a ha
    exfalso
    cases a with
    | c1 q y k | c2 q y k | c3 q y k | c4 q y k | c5 q y k | c6 q y k =>
      cases k <;> simp_all [PC.stopping, PC.willClose, Cont.stops, Cont.uses]
    | _ => simp_all [PC.stopping, PC.willClose]

/-- **C56, refusing, for every history**: after any `Shutdown` returned, `Serve` returns; and no `Dial` that was not
already about to register its connection ever succeeds. -/
theorem C56_refuses {size : Nat} {s : State} (h : Reachable size s) {first : Bool} (hs : Ev.stopEnd first ∈ s.g.log) :
    (∀ ch conns, act s.g ch conns .v2 = some (s.g.ev (.serveEnd true), [])) ∧
    ((∀ p, .d7 p ∉ s.threads) → ∀ s', From (fun _ _ => True) s s' → ∀ p, Ev.dialEnd p true ∈ s'.g.log →
      Ev.dialEnd p true ∈ s.g.log) := by
  have ha := (stopEnd_reachable h).1 first hs
  exact ⟨fun ch conns => by simp [act, ha], fun hn s' h' p => refuses_for_ever ha hn h' p⟩

/-- Two connections, then `Shutdown`. -/
example : ∃ s, ReachableIf 2 CalmStop s ∧ Ev.stopEnd true ∈ s.g.log ∧ Ev.dialEnd 0 true ∈ s.g.log ∧
    Ev.dialEnd 1 true ∈ s.g.log ∧ s.threads = [] := by
  have hp : ∃ g, play (fun s l => match l with
        | .thread .s1 .. => s.threads.all fun pc => !pc.anyDial
        | .dial _ => s.g.active
        | _ => true) (init 2) (.dial 0 :: Cmd.run 7 ++ .dial 1 :: Cmd.run 7 ++ [.shutdown, .go 0]) =
      some ⟨g, [.s2]⟩ ∧ g.crashed = none ∧ (∀ p, g.listed p = true ↔ p ∈ [0, 1]) ∧
      ∃ s, play (fun _ l => match l with | .thread .s1 .. | .dial _ => false | _ => true)
        ⟨g, [.c1 0 .srv (.stop [1])]⟩ (Cmd.run 12) = some s ∧ Ev.stopEnd true ∈ s.g.log ∧
        Ev.dialEnd 0 true ∈ s.g.log ∧ Ev.dialEnd 1 true ∈ s.g.log ∧ s.threads = [] := by
    refine ⟨_, rfl, rfl, fun p => ?_, _, rfl, by decide, by decide, by decide, rfl⟩
    match p with
    | 0 => exact iff_of_true rfl (by simp)
    | 1 => exact iff_of_true rfl (by simp)
    | p + 2 => exact iff_of_false (by simp [init, G.listed, G.upd, G.setConn, G.setListed, G.stop, G.ev]) (by simp)
  obtain ⟨g, hs, h1, h2, s, hs', h3⟩ := hp
  have r0 : ReachableIf 2 CalmStop ⟨g, [.s2]⟩ := play_from (fun s l h => by
    cases l with
    | thread pc ch conns =>
      cases pc <;> simp_all [CalmStop, PC.anyDial]
      intro p pc hm; have := h pc hm; cases pc <;> simp_all [PC.dials]
    | dial => simpa [CalmStop] using h
    | _ => trivial) _ .start hs
  have r1 : ReachableIf 2 CalmStop ⟨g, [.c1 0 .srv (.stop [1])]⟩ :=
    .step _ (.thread .s2 false [0, 1]) _ r0 trivial
      (Step.thread g _ [] [] [.c1 0 .srv (.stop [1])] .s2 false [0, 1] h1 (fun _ => ⟨by simp, h2⟩) rfl)
  exact ⟨s, play_from (fun s l h => by cases l with
    | thread pc ch conns => cases pc <;> simp_all [CalmStop]
    | dial => simp at h
    | _ => trivial) _ r1 hs', h3⟩

end Webwire.Mem
