import Verif.Proofs.Memchan11

/-!
# C89: calls on in-memory connections come to an end
-/

set_option autoImplicit false

namespace Webwire.Mem

/-- What C89 asks for: whenever no goroutine can go on (and nothing panicked), everybody who waits has a reason
(`MayWait`). Already for pairs that are dialled once, and messages that fit. -/
def C89_full : Prop := ∀ size s, ReachableIf size (fun s l => OneLife s l ∧ GoodWrites size s l) s → AllWait s →
  ∀ pc ∈ s.threads, MayWait s pc

/-- Past the check of the status of a write of that side, before the confirmation. -/
def PC.unconfirmed (p : Nat) (x : Side) : PC → Bool
  | .w3 q y .. | .w4 q y _ | .w5 q y _ | .w6 q y _ | .w7 q y _ | .w8 q y _ => decide (q = p ∧ y = x)
  | _ => false

/-- A reader that wants to confirm a message after the writer left waits for ever. -/
theorem reads_for_ever {s s' : State} {p : Nat} {x : Side} (h1 : .r7 p x.other ∈ s.threads)
    (h2 : s.g.connected p = false) (h3 : (s.g.sock p x.other).parked = true) (h4 : Ev.dialEnd p true ∈ s.g.log)
    (h5 : ∀ a ∈ s.threads, a.unconfirmed p x = false ∧ a.dials p = false) (h : From OneLife s s') :
    .r7 p x.other ∈ s'.threads ∧ (s'.g.sock p x.other).parked = true := by
  have := From.inv (ok := OneLife) (I := fun g ts => .r7 p x.other ∈ ts ∧ g.connected p = false ∧
    (g.sock p x.other).parked = true ∧ Ev.dialEnd p true ∈ g.log ∧
      ∀ a ∈ ts, a.unconfirmed p x = false ∧ a.dials p = false)
    ?_ ?_ ?_ ?_ ?_ ?_ ?_ ?_ ?_ ⟨h1, h2, h3, h4, h5⟩ h
  · exact ⟨this.1, this.2.2.1⟩
  · exact fun g ts ts' h hp => ⟨hp.mem_iff.mp h.1, h.2.1, h.2.2.1, h.2.2.2.1,
      fun a ha => h.2.2.2.2 a (hp.mem_iff.mpr ha)⟩
  · intro g pc rest ts ch conns g' pcs h _ _ _ ha
    obtain ⟨h1, h2, h3, h4, h5⟩ := h
    have hpc := h5 pc List.mem_cons_self
    have hr : ∀ a ∈ rest, a.unconfirmed p x = false ∧ a.dials p = false :=
      fun a ha => h5 a (List.mem_cons_of_mem _ ha)
    have hlog := ha.logs h4
    have hne : pc ≠ .r7 p x.other := by
      rintro rfl
      clear h1 h5 hpc hr hlog
      cases ha
      simp_all
    have hm : .r7 p x.other ∈ rest := by
      rcases List.mem_cons.mp h1 with e | hm
      · exact absurd e.symm hne
      · exact hm
    have key : g'.connected p = false ∧ (g'.sock p x.other).parked = true ∧
        ∀ a ∈ pcs, a.unconfirmed p x = false ∧ a.dials p = false := by
      clear h1 h5 hr hlog hm h4
      cases ha <;> simp [PC.unconfirmed, PC.dials, Sock.setChan, Sock.reset, Sock.put] at hpc h2 h3 hne ⊢ <;>
        grind [Side.other_other]
    refine ⟨List.mem_append.mpr (.inr hm), key.1, key.2.1, hlog, fun a ha => ?_⟩
    rcases List.mem_append.mp ha with ha | ha
    · exact key.2.2 a ha
    · exact hr a ha
  · exact fun g ts q z c h _ => ⟨List.mem_cons_of_mem _ h.1, h.2.1, h.2.2.1, h.2.2.2.1,
      by simpa [PC.unconfirmed, PC.dials] using h.2.2.2.2⟩
  · exact fun g ts q z c h _ => ⟨List.mem_cons_of_mem _ h.1, h.2.1, h.2.2.1, h.2.2.2.1,
      by simpa [PC.unconfirmed, PC.dials] using h.2.2.2.2⟩
  · intro g ts q h ho
    have hq : q ≠ p := by rintro rfl; exact ho.2 h.2.2.2.1
    exact ⟨List.mem_cons_of_mem _ h.1, h.2.1, h.2.2.1, h.2.2.2.1,
      by simpa [PC.unconfirmed, PC.dials, hq] using h.2.2.2.2⟩
  · exact fun g ts q z h _ => ⟨List.mem_cons_of_mem _ h.1, h.2.1, h.2.2.1, h.2.2.2.1,
      by simpa [PC.unconfirmed, PC.dials] using h.2.2.2.2⟩
  · exact fun g ts h _ => ⟨List.mem_cons_of_mem _ h.1, h.2.1, h.2.2.1, h.2.2.2.1,
      by simpa [PC.unconfirmed, PC.dials] using h.2.2.2.2⟩
  · exact fun g ts h _ => ⟨List.mem_cons_of_mem _ h.1, h.2.1, h.2.2.1, h.2.2.2.1,
      by simpa [PC.unconfirmed, PC.dials] using h.2.2.2.2⟩
  · exact fun g ts h _ => h

/-- The client's message has been taken by the server's `Read`, the client waits for the confirmation; the client's
`Close` tells the client's writer; the server's `Read` wants to confirm. -/
def readHangs : List Cmd :=
  .dial 0 :: Cmd.run 7 ++ .read 0 .srv :: Cmd.run 3 ++ .write 0 .clt [[1]] :: Cmd.run 9 ++ [.go 1] ++
  .close 0 .clt :: Cmd.run 6 ++ Cmd.run 2 ++ Cmd.run 2

/-- `GoodWrites`, computed. -/
def goodWrites (size : Nat) : Label → Bool
  | .write _ _ chunks => decide (0 < chunks.flatten.length ∧ chunks.flatten.length ≤ size)
  | _ => true

theorem goodWrites_ok {size : Nat} (s : State) (l : Label) (h : goodWrites size l = true) : GoodWrites size s l := by
  cases l <;> simp_all [goodWrites, GoodWrites]

/-- **C89 is violated**: although no `Close` began while a message was being handed over, a `Read` that had taken a
message hangs after `Close` has returned, the write has returned with an error, and whatever is called later on pairs
that are dialled once. -/
theorem C89_read_hangs_violated : ∃ s, ReachableIf 4 (fun s l => CalmClose s l ∧ GoodWrites 4 s l) s ∧
    s.g.crashed = none ∧ Ev.closeEnd 0 .clt ∈ s.g.log ∧ Ev.writeEnd 0 .clt [1] .closed ∈ s.g.log ∧
    s.threads = [.r7 0 .srv] ∧ AllWait s ∧
    ∀ s', From OneLife s s' → .r7 0 .srv ∈ s'.threads ∧ ∀ ch conns, act s'.g ch conns (.r7 0 .srv) = none := by
  have hp : ∃ s, play (fun s l => calmClose s l && goodWrites 4 l) (init 4) readHangs = some s ∧ s.g.crashed = none ∧ Ev.closeEnd 0 .clt ∈ s.g.log ∧
    Ev.writeEnd 0 .clt [1] .closed ∈ s.g.log ∧ s.threads = [.r7 0 .srv] ∧ s.g.connected 0 = false ∧
    (s.g.sock 0 .srv).parked = true ∧ Ev.dialEnd 0 true ∈ s.g.log :=
    ⟨_, rfl, rfl, by decide, by decide, rfl, rfl, rfl, by decide⟩
  obtain ⟨s, hs, h1, h2, h3, h4, h5, h6, h7⟩ := hp
  have hfor : ∀ s', From OneLife s s' → .r7 0 .srv ∈ s'.threads ∧ ∀ ch conns, act s'.g ch conns (.r7 0 .srv) = none := by
    intro s' h'
    have := reads_for_ever (s := s) (p := 0) (x := .clt) (by simp [h4, Side.other]) h5 h6 h7
      (by simp [h4, PC.unconfirmed, PC.dials]) h'
    exact ⟨this.1, fun ch conns => by simp only [act]; rw [show (s'.g.sock 0 .srv).parked = true from this.2]; rfl⟩
  refine ⟨s, play_from (fun s l h => ?_) readHangs .start hs, h1, h2, h3, h4, ⟨h1, ?_⟩, hfor⟩
  · simp only [Bool.and_eq_true] at h
    exact ⟨calmClose_ok s l h.1, goodWrites_ok s l h.2⟩
  · intro pc ch conns s' hst
    have hno := (hfor s .start).2
    obtain ⟨g, ts⟩ := s
    simp only at h4
    cases hst with
    | thread g g' pre post pcs pc ch conns hcr hsn hact =>
      have hpc : pc ∈ pre ++ pc :: post := by simp
      rw [h4] at hpc
      simp at hpc
      subst hpc
      simp only at hno
      rw [hno] at hact; cases hact

/-- **C89 is violated.** -/
theorem C89_violated : ¬ C89_full := by
  intro h
  obtain ⟨s, hr, -, hc, -, hts, hw, -⟩ := C89_read_hangs_violated
  have hr' : ReachableIf 4 (fun s l => OneLife s l ∧ GoodWrites 4 s l) s := by
    clear hw hts hc
    unfold ReachableIf at hr ⊢
    induction hr with
    | start => exact .start
    | step s1 l s2 _ ho hst ih => exact .step s1 l s2 ih ⟨ho.1.1, ho.2⟩ hst
  have hcon := (closeEnd_reachable (fun _ _ h => h.1) hr' 0 .clt hc).1
  rcases h 4 s hr' hw (.r7 0 .srv) (by simp [hts]) with ⟨e, -⟩ | ⟨p, x, h1, ⟨h2, -⟩ | ⟨h2, -⟩⟩
  · cases e
  · simp [PC.reads] at h2
    rw [← h2.1, hcon] at h1; cases h1
  · simp [PC.writes] at h2

/-- **C89, the part that holds**: if no pair is dialled twice, only messages that fit are written and no `Close` comes
between handing over a message and its confirmation by a `Read` that is under way (`QuietClose`), then whenever no
goroutine can go on, everybody who waits has a reason: it is in `Serve`; or it reads from an open connection, without a
deadline or after such a `Read`, and every message of the other side has been read; or it writes to an open connection,
nobody reads on the other side, and every message that was read has been reported as written. So calls of `Dial`, `Close` and `Shutdown` end; and after `Close` all calls end.
Missing: such a `Close`, for which it is false. -/
theorem C89_partial {size : Nat} {s : State} (h : ReachableIf size (fun s l => QuietClose s l ∧ GoodWrites size s l) s)
    (hw : AllWait s) : ∀ pc ∈ s.threads, MayWait s pc := by
  have hgood : ReachableIf size (GoodWrites size) s := by
    clear hw
    unfold ReachableIf at h ⊢
    induction h with
    | start => exact .start
    | step s1 l s2 _ ho hst ih => exact .step s1 l s2 ih ho.2 hst
  exact fun pc hm => all_may_wait (size := size) (From.oneLife (fun _ _ h => h.1.1.1) h).of
    (fun p _ => (Shut.reachable (fun _ _ h => h.1.1) h).2.1 p) (fun p x _ => Ends.reachable (fun _ _ h => h.1) h p x)
    (fun p x => (Fits.reachable hgood p x).2) (fun p x => readerLock_reachable h p x) hw (snapshot_reachable h) hm

/-- **C55, everybody leaves, the part that holds**: under the same assumptions, after `Close` returned on either side,
when no goroutine can go on nobody is left in a call of that pair. Missing: other executions, for which it is false. -/
theorem C55_ends_partial {size : Nat} {s : State}
    (h : ReachableIf size (fun s l => QuietClose s l ∧ GoodWrites size s l) s) {p : Nat} {x : Side}
    (hc : Ev.closeEnd p x ∈ s.g.log) (hw : AllWait s) : ∀ pc ∈ s.threads,
      (∀ y, pc.reads p y = false ∧ pc.writes p y = false) ∧ pc.closes p = false := by
  have hcon := (closeEnd_reachable (fun _ _ h => h.1.1.1) h p x hc).1
  intro pc hm
  rcases C89_partial h hw pc hm with ⟨rfl, -⟩ | ⟨q, z, h1, ⟨h2, -⟩ | ⟨h2, -⟩⟩
  · simp [PC.reads, PC.writes, PC.closes]
  · have hq : q ≠ p := by rintro rfl; rw [hcon] at h1; cases h1
    cases pc with
    | c1 q y k | c2 q y k | c3 q y k | c4 q y k | c5 q y k | c6 q y k =>
      cases k <;> simp_all [PC.reads, PC.writes, PC.closes]
    | _ => simp_all [PC.reads, PC.writes, PC.closes]
  · have hq : q ≠ p := by rintro rfl; rw [hcon] at h1; cases h1
    cases pc <;> simp_all [PC.reads, PC.writes, PC.closes]

/-- **C89, nobody goes on for ever**: there is no endless sequence of steps without new calls. So, if no more calls
are made, a state as in `C89_partial` is reached, whatever the order of the steps. For all executions. -/
theorem C89_ends : WellFounded fun s' s : State => ∃ pc ch conns, Step s (.thread pc ch conns) s' := steps_wf

/-- A message has been exchanged; now the client reads, and has nothing to read; the server writes, and so does
another of its goroutines; `Serve` waits. -/
def waiting : List Cmd :=
  .dial 0 :: Cmd.run 7 ++ .write 0 .clt [[1]] :: Cmd.run 9 ++ .read 0 .srv :: Cmd.run 6 ++ Cmd.run 2 ++
  .read 0 .srv :: Cmd.run 3 ++ .serve :: Cmd.run 1 ++ .dial 1 :: Cmd.run 7 ++ .write 1 .srv [[2], [3]] :: Cmd.run 10 ++
  [.write 1 .srv [[4]]]

theorem quietGood_ok {size : Nat} {s : State} {l : Label} (h : (quietClose s l && goodWrites size l) = true) :
    QuietClose s l ∧ GoodWrites size s l := by
  simp only [Bool.and_eq_true] at h
  exact ⟨quietClose_ok s l h.1, goodWrites_ok s l h.2⟩

example : ∃ s, ReachableIf 4 (fun s l => QuietClose s l ∧ GoodWrites 4 s l) s ∧ AllWait s ∧
    s.threads = [.w1 1 .srv [[4]], .w9 1 .srv [2, 3], .v2, .r4 0 .srv false 1] ∧
    Ev.readEnd 0 .srv .ok ∈ s.g.log := by
  have hp : ∃ s, play (fun s l => quietClose s l && goodWrites 4 l) (init 4) waiting = some s ∧ s.g.crashed = none ∧
    s.threads = [.w1 1 .srv [[4]], .w9 1 .srv [2, 3], .v2, .r4 0 .srv false 1] ∧ Ev.readEnd 0 .srv .ok ∈ s.g.log ∧
    (∀ ch conns, act s.g ch conns (.w1 1 .srv [[4]]) = none) ∧ (∀ ch conns, act s.g ch conns (.w9 1 .srv [2, 3]) = none) ∧
    (∀ ch conns, act s.g ch conns .v2 = none) ∧ (∀ ch conns, act s.g ch conns (.r4 0 .srv false 1) = none) :=
    ⟨_, rfl, rfl, rfl, by decide, fun _ _ => rfl, fun _ _ => rfl, fun _ _ => rfl, fun _ _ => rfl⟩
  obtain ⟨s, hs, h1, h2, h3, a1, a2, a3, a4⟩ := hp
  refine ⟨s, play_from (fun s l h => quietGood_ok h) waiting .start hs, ⟨h1, ?_⟩, h2, h3⟩
  intro pc ch conns s' hst
  obtain ⟨g, ts⟩ := s
  simp only at h2 a1 a2 a3 a4
  cases hst with
  | thread g g' pre post pcs pc ch conns hcr hsn hact =>
    have hpc : pc ∈ pre ++ pc :: post := by simp
    rw [h2] at hpc
    simp at hpc
    rcases hpc with rfl | rfl | rfl | rfl
    · rw [a1] at hact; cases hact
    · rw [a2] at hact; cases hact
    · rw [a3] at hact; cases hact
    · rw [a4] at hact; cases hact

/-- The connection is closed while a `Read` waits: everybody leaves. -/
def closing : List Cmd :=
  .dial 0 :: Cmd.run 7 ++ .read 0 .srv :: Cmd.run 3 ++ .close 0 .clt :: Cmd.run 6 ++ Cmd.run 2

example : ∃ s, ReachableIf 4 (fun s l => QuietClose s l ∧ GoodWrites 4 s l) s ∧ s.threads = [] ∧
    Ev.closeEnd 0 .clt ∈ s.g.log ∧ Ev.readEnd 0 .srv .closed ∈ s.g.log := by
  have hp : ∃ s, play (fun s l => quietClose s l && goodWrites 4 l) (init 4) closing = some s ∧ s.threads = [] ∧ Ev.closeEnd 0 .clt ∈ s.g.log ∧
      Ev.readEnd 0 .srv .closed ∈ s.g.log := ⟨_, rfl, rfl, by decide, by decide⟩
  obtain ⟨s, hs, h1⟩ := hp
  exact ⟨s, play_from (fun s l h => quietGood_ok h) closing .start hs, h1⟩

end Webwire.Mem
