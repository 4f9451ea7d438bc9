import Verif.Proofs.MemchanLives2
import Verif.Props.MemchanEnds

/-!
# C52, C55 and C89 for pairs that are dialled again
-/

set_option autoImplicit false

namespace Webwire.Mem

/-- **C52, the part that holds, for pairs that are dialled any number of times**: if a pair is dialled again only when it is
closed and all calls on it have returned (`Lives`), then in each of its lives what a side reads is exactly what the other
side handed over in that life, in order, once, and whole; nothing is left over from the life before, even if it ended with
a message that was handed over and not read. Missing compared to `C52_full`: dialling while a `Read` of the last life is
still under way (`C52_violated`). -/
theorem C52_lives_partial {size : Nat} {s : State} (h : ReachableIf size Lives s) (p : Nat) (x : Side) :
    ∀ l ∈ lives p s.g.log, Delivered p x l := by
  obtain ⟨l, hi⟩ := From.lives (fun _ _ h => h) h
  exact hi.done p x

/-- A message is handed over, but the pair is closed before it is read; the pair is dialled again, and another message is
written and read: it is not the one left in the channel. -/
def leftOver : List Cmd :=
  .dial 0 :: Cmd.run 7 ++ .write 0 .srv [[1]] :: Cmd.run 9 ++ .close 0 .srv :: Cmd.run 6 ++ Cmd.run 2 ++
  .dial 0 :: Cmd.run 7 ++ .write 0 .srv [[2]] :: Cmd.run 9 ++ .read 0 .clt :: Cmd.run 6 ++ Cmd.run 2

example : ∃ s, ReachableIf 4 Lives s ∧ s.threads = [] ∧
    (lives 0 s.g.log).map (flushes 0 .srv) = [[], [[1]], [[2]]] ∧
    (lives 0 s.g.log).map (copies 0 .clt) = [[], [], [[2]]] ∧
    (lives 0 s.g.log).map (oks 0 .srv) = [[], [], [[2]]] := by
  have hp : ∃ s, play livesOk (init 4) leftOver = some s ∧ s.threads = [] ∧
    (lives 0 s.g.log).map (flushes 0 .srv) = [[], [[1]], [[2]]] ∧
    (lives 0 s.g.log).map (copies 0 .clt) = [[], [], [[2]]] ∧
    (lives 0 s.g.log).map (oks 0 .srv) = [[], [], [[2]]] := ⟨_, rfl, rfl, by decide, by decide, by decide⟩
  obtain ⟨s, hs, h1⟩ := hp
  exact ⟨s, play_from livesOk_ok leftOver .start hs, h1⟩

/-- **C55, no panic, the part that holds, for pairs that are dialled any number of times**: if a pair is dialled again only
when it is closed and all calls on it have returned, and no `Close` begins while a writer of that pair is between its check
of the status and handing over its message (`CalmLives`), nothing ever panics. Missing: such a `Close`, for which it is false. -/
theorem C55_lives_no_panic_partial {size : Nat} {s : State} (h : ReachableIf size CalmLives s) : s.g.crashed = none := by
  obtain ⟨l, _, _, h⟩ := LShut.reachable (fun _ _ h => h) h
  exact h

/-- **C55, the result of closing, the part that holds, in each life**: under the same assumption, after `Close` returned on
either side since the last time the pair was dialled: both sides report being disconnected; further calls of `Close` on
either side return at once and change nothing; `Read` calls return the closure error. As soon as nobody is inside `Close`,
the transport does not list the connection, both channels are closed, and every reader that was waiting for a message can
go on. -/
theorem C55_lives_partial {size : Nat} {s : State} (h : ReachableIf size CalmLives s) {p : Nat} {x : Side}
    (hc : Ev.closeEnd p x ∈ lastLife p s.g.log)
    (hd : ∀ pc ∈ s.threads, pc.dials p = false) (hok : lastDial p s.g.log = some true) :
    s.g.connected p = false ∧
    (∀ y ch conns, act s.g ch conns (.c1 p y .user) = some (s.g.ev (.closeEnd p y), [])) ∧
    (∀ y dl ch conns, ∃ g', act s.g ch conns (.r2 p y dl) = some (g', []) ∧
      g'.log = s.g.log ++ [.readEnd p y .closed]) ∧
    ((∀ pc ∈ s.threads, pc.closing p = false) →
      s.g.listed p = false ∧ (∀ y, (s.g.sock p y).chan.closed = true) ∧
      (∀ y dl ch conns, .r3 p y dl ∈ s.threads → (act s.g ch conns (.r3 p y dl)).isSome = true) ∧
      (∀ y dl i ch conns, .r4 p y dl i ∈ s.threads → (act s.g ch conns (.r4 p y dl i)).isSome = true)) := by
  obtain ⟨l, hinv, hsh, -⟩ := LShut.reachable (fun _ _ h => h) h
  have hm : Ev.dialEnd p true ∈ l := (hinv.last p hd).mpr hok
  have hconn := (hsh p).closed x (((hsh p).piece hm x).mpr hc)
  refine ⟨hconn.2, fun y ch conns => by simp [act, goOn, hconn.2],
    fun y dl ch conns => ⟨_, by simp only [act, hconn.2]; rfl, rfl⟩, fun hn => ?_⟩
  have hs := (hsh p).on hm
  have hdone := hs.done hm hconn.2 hn
  refine ⟨hdone.1, hdone.2, fun y dl ch conns hr => ?_, fun y dl i ch conns hr => ?_⟩
  · cases hl : (s.g.sock p y).readerLock
    · simp [act, hl]
    · obtain ⟨a, ha, hsnd⟩ := (hsh p).lock y hl
      have := hs.over a ha (by cases a <;> simp_all [PC.sends, PC.handsOver])
      rw [conn_relog, hconn.2] at this; cases this
  · have hcore := hinv.core p y.other hm
    have hi : i = (s.g.sock p y).gen := by
      have h1 := hcore.gen dl i
      simp only [Side.other_other, sock_relog] at h1
      exact h1 (the_of_mem (hinv.locks p y).exclR hr (by simp [PC.rd]))
    subst hi
    have hcl := hdone.2 y
    simp only [act, Sock.chan, sock_relog] at hcl ⊢
    split
    · rfl
    · split
      · rfl
      · simp

/-- The second life: a reader waits, and one side closes. -/
def again : List Cmd := leftOver ++ .read 0 .clt :: Cmd.run 3 ++ .close 0 .srv :: Cmd.run 6

example : ∃ s, ReachableIf 4 CalmLives s ∧ (lives 0 s.g.log).length = 3 ∧
    Ev.closeEnd 0 .srv ∈ lastLife 0 s.g.log ∧ lastDial 0 s.g.log = some true ∧
    s.threads = [.r4 0 .clt false 2] := by
  have hp : ∃ s, play calmLives (init 4) again = some s ∧ (lives 0 s.g.log).length = 3 ∧
    Ev.closeEnd 0 .srv ∈ lastLife 0 s.g.log ∧ lastDial 0 s.g.log = some true ∧
    s.threads = [.r4 0 .clt false 2] := ⟨_, rfl, by decide, by decide, by decide, rfl⟩
  obtain ⟨s, hs, h1⟩ := hp
  exact ⟨s, play_from calmLives_ok again .start hs, h1⟩

/-- **C89, the part that holds, for pairs that are dialled any number of times**: if a pair is dialled again only when it
is closed and all calls on it have returned, only messages that fit are written, and no `Close` comes between handing over
a message and its confirmation by a `Read` that is under way (`QuietLives`), then whenever no goroutine can go on, everybody
who waits has a reason; a message left over from a former life is none. Missing: other executions, for which it is false. -/
theorem C89_lives_partial {size : Nat} {s : State} (h : ReachableIf size (fun s l => QuietLives s l ∧ GoodWrites size s l) s)
    (hw : AllWait s) : ∀ pc ∈ s.threads, MayWaitNow s pc := by
  have hgood : ReachableIf size (GoodWrites size) s := by
    clear hw
    unfold ReachableIf at h ⊢
    induction h with
    | start => exact .start
    | step s1 l s2 _ ho hst ih => exact .step s1 l s2 ih ho.2 hst
  obtain ⟨l, hi, hk, he⟩ := LEnds.reachable (fun _ _ h => h.1) h
  have hfit := fun p x => (Fits.reachable hgood p x).2
  intro pc hm
  have := all_may_wait (size := size) (s := ⟨s.g.relog l, s.threads⟩)
    ⟨fun p x => (hi.locks p x).relog l, hi.life, hi.core⟩ (fun p hp => (hk.1 p).on hp) (fun p x hp => (he p x).on hp)
    (fun p x => (hfit p x).relog l) (fun p x => (hk.1 p).lock x) hw.relog
    (show ∃ conns, Snapshot s.g conns from snapshot_reachable h) hm
  have hpiece : ∀ p, s.g.connected p = true → pc.uses p = true → ∀ x,
      flushes p x l = flushes p x (lastLife p s.g.log) ∧ copies p x l = copies p x (lastLife p s.g.log) ∧
      oks p x l = oks p x (lastLife p s.g.log) := fun p _ hu x => hi.piece p x ((hi.life p).uses pc hm hu)
  rcases this with h' | ⟨p, x, hc, ⟨h1, h2, h3⟩ | ⟨h1, h2, h3⟩⟩
  · exact .inl h'
  · have hp := hpiece p hc (reads_uses h1)
    refine .inr ⟨p, x, hc, .inl ⟨h1, h2, ?_⟩⟩
    rw [← (hp x.other).1, ← (hp x).2.1]; exact h3
  · have hp := hpiece p hc (writes_uses h1)
    refine .inr ⟨p, x, hc, .inr ⟨h1, h2, ?_⟩⟩
    rw [← (hp x.other).2.1, ← (hp x).2.2]; exact h3

/-- The second life, a message having been left over in the first: a reader waits. -/
def again2 : List Cmd := leftOver ++ .read 0 .clt :: Cmd.run 3

theorem quietLivesGood_ok {size : Nat} {s : State} {l : Label} (h : (quietLives s l && goodWrites size l) = true) :
    QuietLives s l ∧ GoodWrites size s l := by
  simp only [Bool.and_eq_true] at h
  exact ⟨quietLives_ok s l h.1, goodWrites_ok s l h.2⟩

example : ∃ s, ReachableIf 4 (fun s l => QuietLives s l ∧ GoodWrites 4 s l) s ∧ AllWait s ∧
    s.threads = [.r4 0 .clt false 2] ∧ flushes 0 .srv s.g.log = [[1], [2]] ∧ copies 0 .clt s.g.log = [[2]] := by
  have hp : ∃ s, play (fun s l => quietLives s l && goodWrites 4 l) (init 4) again2 = some s ∧ s.g.crashed = none ∧
    s.threads = [.r4 0 .clt false 2] ∧ flushes 0 .srv s.g.log = [[1], [2]] ∧ copies 0 .clt s.g.log = [[2]] ∧
    (∀ ch conns, act s.g ch conns (.r4 0 .clt false 2) = none) :=
    ⟨_, rfl, rfl, rfl, by decide, by decide, fun _ _ => rfl⟩
  obtain ⟨s, hs, h1, h2, h3, h4, h5⟩ := hp
  refine ⟨s, play_from (fun s l h => quietLivesGood_ok h) again2 .start hs, ⟨h1, ?_⟩, h2, h3, h4⟩
  intro pc ch conns s' hst
  obtain ⟨g, ts⟩ := s
  simp only at h2
  cases hst with
  | thread g g' pre post pcs pc ch conns hcr hsn hact =>
    have hpc : pc ∈ pre ++ pc :: post := by simp
    rw [h2] at hpc
    simp at hpc
    subst hpc
    simp only at h5
    rw [h5] at hact; cases hact

/-- **C55, everybody leaves, the part that holds, in each life**: under the same assumptions, after `Close` returned on
either side since the last time the pair was dialled, when no goroutine can go on nobody is left in a call of that pair.
Missing: other executions, for which it is false. -/
theorem C55_lives_ends_partial {size : Nat} {s : State}
    (h : ReachableIf size (fun s l => QuietLives s l ∧ GoodWrites size s l) s) {p : Nat} {x : Side}
    (hc : Ev.closeEnd p x ∈ lastLife p s.g.log) (hd : ∀ pc ∈ s.threads, pc.dials p = false)
    (hok : lastDial p s.g.log = some true) (hw : AllWait s) : ∀ pc ∈ s.threads,
      (∀ y, pc.reads p y = false ∧ pc.writes p y = false) ∧ pc.closes p = false := by
  have hcon : s.g.connected p = false := by
    obtain ⟨l, hinv, hsh, -⟩ := LShut.reachable (fun _ _ h => h.1.1) h
    exact ((hsh p).closed x (((hsh p).piece ((hinv.last p hd).mpr hok) x).mpr hc)).2
  intro pc hm
  rcases C89_lives_partial h hw pc hm with ⟨rfl, -⟩ | ⟨q, z, h1, ⟨h2, -⟩ | ⟨h2, -⟩⟩
  · simp [PC.reads, PC.writes, PC.closes]
  · have hq : q ≠ p := by rintro rfl; rw [hcon] at h1; cases h1
    cases pc with
    | c1 q y k | c2 q y k | c3 q y k | c4 q y k | c5 q y k | c6 q y k =>
      cases k <;> simp_all [PC.reads, PC.writes, PC.closes]
    | _ => simp_all [PC.reads, PC.writes, PC.closes]
  · have hq : q ≠ p := by rintro rfl; rw [hcon] at h1; cases h1
    cases pc <;> simp_all [PC.reads, PC.writes, PC.closes]

/-- The second life ends while a `Read` waits: everybody leaves. -/
def again3 : List Cmd := again ++ Cmd.run 2

example : ∃ s, ReachableIf 4 (fun s l => QuietLives s l ∧ GoodWrites 4 s l) s ∧ Ev.closeEnd 0 .srv ∈ lastLife 0 s.g.log ∧
    lastDial 0 s.g.log = some true ∧ Ev.readEnd 0 .clt .closed ∈ lastLife 0 s.g.log ∧ s.threads = [] ∧ AllWait s := by
  have hp : ∃ s, play (fun s l => quietLives s l && goodWrites 4 l) (init 4) again3 = some s ∧
    Ev.closeEnd 0 .srv ∈ lastLife 0 s.g.log ∧ lastDial 0 s.g.log = some true ∧
    Ev.readEnd 0 .clt .closed ∈ lastLife 0 s.g.log ∧ s.threads = [] ∧ s.g.crashed = none :=
    ⟨_, rfl, by decide, by decide, by decide, rfl, rfl⟩
  obtain ⟨s, hs, h1, h2, h3, h4, h5⟩ := hp
  refine ⟨s, play_from (fun s l h => quietLivesGood_ok h) again3 .start hs, h1, h2, h3, h4, h5, ?_⟩
  intro pc ch conns s' hst
  obtain ⟨g, ts⟩ := s
  simp only at h4
  cases hst with
  | thread g g' pre post pcs pc ch conns hcr hsn hact => simp at h4

end Webwire.Mem
