import Verif.Model.MemchanRace
import Verif.Proofs.MemchanLives2
import Verif.Props.MemchanLives
import Mathlib.Tactic.ByContra

/-!
# C96: the memchan transport is free of data races
-/

set_option autoImplicit false

namespace Webwire.Mem

/-- The goroutine can make its next step, which makes this access. -/
def Does (s : State) (i : Nat) (a : Acc) : Prop :=
  ∃ pc, s.threads[i]? = some pc ∧ a ∈ pc.accs ∧ ∃ ch conns, (act s.g ch conns pc).isSome = true

/-- Two goroutines are about to access the same variable at once, one of them to write it, and the steps do not take the same
lock. -/
def Race (s : State) (i j : Nat) (a b : Acc) : Prop :=
  i ≠ j ∧ Does s i a ∧ Does s j b ∧ a.loc = b.loc ∧ (a.write = true ∨ b.write = true) ∧ ¬ (a.lock.isSome ∧ a.lock = b.lock)

/-- What C96 asks for: there are no data races. -/
def C96_full : Prop := ∀ size s, Reachable size s → ∀ i j a b, ¬ Race s i j a b

/-- **C96 is violated**: the reader that is slower than closing and dialling again (`mixed`) reads the buffer while the next
message is written into it. -/
theorem C96_violated : ¬ C96_full := by
  intro h
  have hp : ∃ s, play (fun _ _ => true) (init 4) (.dial 0 :: Cmd.run 7 ++ .write 0 .srv [[1]] :: Cmd.run 9 ++
      .read 0 .clt :: Cmd.run 4 ++ .close 0 .srv :: Cmd.run 6 ++ [.go 1, .go 1] ++ .dial 0 :: Cmd.run 7 ++
      .write 0 .srv [[2]] :: Cmd.run 2) = some s ∧ s.threads = [.w3 0 .srv [2] [[2]], .r5 0 .clt 1] ∧
      (s.g.sock 0 .srv).bufLock = false ∧ (s.g.sock 0 .srv).arr.length = 4 ∧ (s.g.sock 0 .srv).len = 0 :=
    ⟨_, rfl, rfl, rfl, rfl, rfl⟩
  obtain ⟨s, hs, h1, h2, h3, h4⟩ := hp
  refine h 4 s (play_from (fun _ _ _ => trivial) _ .start hs) 0 1 ⟨.arr 0 .srv, true, some (.buf 0 .srv)⟩
    ⟨.arr 0 .srv, false, none⟩ ⟨by simp, ⟨_, by simp [h1]; rfl, by simp [PC.accs], false, [], by simp [act, h2, h3, h4]⟩,
      ⟨_, by simp [h1]; rfl, by simp [PC.accs, Side.other], false, [], by simp [act]⟩, rfl, .inl rfl, by simp⟩

theorem From.any {ok : State → Label → Prop} {s s' : State} (h : From ok s s') : From (fun _ _ => True) s s' := by
  induction h with
  | start => exact .start
  | step _ _ _ _ _ hs ih => exact .step _ _ _ ih trivial hs

/-! ## Who holds which lock -/

/-- The lock that guards the variable. -/
inductive Guard
  | buf (p : Nat) (x : Side)
  | reader (p : Nat) (x : Side)
  | read (p : Nat) (x : Side)
  | conns

/-- Which lock guards which variable. -/
def Loc.guard : Loc → Guard
  | .arr p x | .len p x => .buf p x
  | .reader p x => .reader p x
  | .timer p x => .read p x
  | .conns => .conns

/-- The goroutine has the lock. -/
def PC.has : Guard → PC → Bool
  | .buf p x => PC.bf p x
  | .reader p x => PC.sends p x
  | .read p x => PC.rd p x
  | .conns => fun _ => false

/-- The lock is taken. -/
def G.taken (g : G) : Guard → Bool
  | .buf p x => (g.sock p x).bufLock
  | .reader p x => (g.sock p x).readerLock
  | .read p x => (g.sock p x).readLock
  | .conns => false

/-- The lock, as taken by the step. -/
def Guard.lock : Guard → Option Lock
  | .buf p x => some (.buf p x)
  | .reader p x => some (.reader p x)
  | .read _ _ => none
  | .conns => some .conns

theorem Acts.slotS {g g' : G} {pc : PC} {pcs : List PC} (ha : Acts g pc g' pcs) (p : Nat) (x : Side) :
    SlotStep (PC.sends p x) (g.sock p x).readerLock (g'.sock p x).readerLock pc pcs := by
  unfold SlotStep
  cases ha <;> simp [PC.sends, Sock.setChan, Sock.reset, Sock.put] <;> grind [Side.other_other]

/-- In every execution whoever has a lock has it alone. -/
theorem alone {size : Nat} {s : State} (h : Reachable size s) (l : Guard) :
    (∀ a ∈ s.threads, a.has l = true → s.g.taken l = true) ∧ Excl (PC.has l) s.threads := by
  have key : ∀ (P : PC → Bool) (lk : G → Bool), (∀ g g' pc pcs, Acts g pc g' pcs → SlotStep P (lk g) (lk g') pc pcs) →
      (∀ pc, (pc.fresh = true ∨ ∃ p, pc = .d1 p) → P pc = false) → (∀ g, lk g.refuse = lk g) →
      (∀ a ∈ s.threads, P a = true → lk s.g = true) ∧ Excl P s.threads := by
    intro P lk hst hf hrf
    have hadd : ∀ (g : G) ts a, (a.fresh = true ∨ ∃ p, a = .d1 p) → ((∀ a ∈ ts, P a = true → lk g = true) ∧ Excl P ts) →
        (∀ b ∈ a :: ts, P b = true → lk g = true) ∧ Excl P (a :: ts) := by
      intro g ts a ha hi
      have := hf a ha
      exact ⟨by simpa [this] using hi.1, Excl.cons.mpr ⟨by simp [this], hi.2⟩⟩
    refine From.inv (ok := fun _ _ => True) (I := fun g ts => (∀ a ∈ ts, P a = true → lk g = true) ∧ Excl P ts)
      ?_ ?_ ?_ ?_ ?_ ?_ ?_ ?_ ?_ (by simp [init, Excl.nil]) h
    · exact fun g ts ts' h hp => ⟨fun a ha => h.1 a (hp.mem_iff.mpr ha), h.2.perm hp⟩
    · exact fun g pc rest ts ch conns g' pcs h _ _ _ ha => (hst _ _ _ _ ha).excl h.1 h.2
    · exact fun g ts p x c h _ => hadd _ _ _ (.inl rfl) h
    · exact fun g ts p x c h _ => hadd _ _ _ (.inl rfl) h
    · exact fun g ts p h _ => hadd _ _ _ (.inr ⟨p, rfl⟩) h
    · exact fun g ts p x h _ => hadd _ _ _ (.inl rfl) h
    · exact fun g ts h _ => hadd _ _ _ (.inl rfl) h
    · exact fun g ts h _ => hadd _ _ _ (.inl rfl) h
    · exact fun g ts h _ => by rw [hrf]; exact h
  cases l with
  | buf p x =>
    exact key _ (fun g => (g.sock p x).bufLock) (fun _ _ _ _ ha => ha.slotB p x) (by intro pc; cases pc <;> simp [PC.fresh, PC.has, PC.bf]) (fun _ => rfl)
  | reader p x =>
    exact key _ (fun g => (g.sock p x).readerLock) (fun _ _ _ _ ha => ha.slotS p x) (by intro pc; cases pc <;> simp [PC.fresh, PC.has, PC.sends]) (fun _ => rfl)
  | read p x =>
    exact key _ (fun g => (g.sock p x).readLock) (fun _ _ _ _ ha => ha.slotR p x)
      (by
        intro pc
        cases pc with
        | c1 q y k => cases k <;> simp [PC.fresh, PC.has, PC.rd]
        | _ => simp [PC.fresh, PC.has, PC.rd]) (fun _ => rfl)
  | conns =>
    exact key _ (fun _ => false) (fun g g' pc pcs ha => ⟨(ha.life 0).1, .inr (.inl ⟨by simp [PC.has], .inl rfl⟩)⟩)
      (by simp [PC.has]) (fun _ => rfl)

/-- Every access is made with the lock of the variable, except that `Read` copies the bytes of the other side's buffer without
its lock. -/
theorem guarded {g : G} {pc : PC} {a : Acc} (ha : a ∈ pc.accs) {ch : Bool} {conns : List Nat}
    (he : (act g ch conns pc).isSome = true) :
    (a.lock.isSome = true ∧ a.lock = a.loc.guard.lock ∧ g.taken a.loc.guard = false) ∨ pc.has a.loc.guard = true ∨
    (∃ p x n, pc = .r5 p x n ∧ a.loc = .arr p x.other ∧ a.write = false) := by
  cases pc with
  | w3 p x m cs => cases cs <;> simp [PC.accs] at ha; rcases ha with rfl | rfl <;> cases hb : (g.sock p x).bufLock <;> simp_all [act, Loc.guard, Guard.lock, G.taken]
  | w4 p x m => simp [PC.accs] at ha; subst ha; cases hb : (g.sock p x).bufLock <;> simp_all [act, Loc.guard, Guard.lock, G.taken]
  | w7 p x m => simp [PC.accs] at ha; rcases ha with rfl | rfl <;> simp [Loc.guard, PC.has, PC.bf, PC.sends]
  | w10 p x m r => simp [PC.accs] at ha; subst ha; simp [Loc.guard, PC.has, PC.bf]
  | r3 p x dl => simp [PC.accs] at ha; subst ha; simp [act] at he; simp_all [Loc.guard, Guard.lock, G.taken]
  | r4 p x dl i => cases dl <;> simp [PC.accs] at ha; subst ha; simp [Loc.guard, PC.has, PC.rd]
  | r5 p x n => simp [PC.accs] at ha; subst ha; exact .inr (.inr ⟨p, x, n, rfl, rfl, rfl⟩)
  | c2 p x k => simp [PC.accs] at ha; subst ha; cases hb : (g.sock p x.other).readerLock <;> simp_all [act, Loc.guard, Guard.lock, G.taken]
  | c5 p x k => simp [PC.accs] at ha; subst ha; cases hb : (g.sock p x).readerLock <;> simp_all [act, Loc.guard, Guard.lock, G.taken]
  | c6 p x k => simp [PC.accs] at ha; subst ha; simp [Loc.guard, Guard.lock, G.taken]
  | d3 p => simp [PC.accs] at ha; subst ha; simp [act] at he; simp_all [Loc.guard, Guard.lock, G.taken]
  | d4 p => simp [PC.accs] at ha; subst ha; simp [act] at he; simp_all [Loc.guard, Guard.lock, G.taken]
  | d7 p => simp [PC.accs] at ha; subst ha; simp [Loc.guard, Guard.lock, G.taken]
  | s2 => simp [PC.accs] at ha; subst ha; simp [Loc.guard, Guard.lock, G.taken]
  | _ => simp [PC.accs] at ha

/-- Who writes the bytes of a buffer. -/
theorem writes_arr {pc : PC} {a : Acc} (ha : a ∈ pc.accs) {p : Nat} {x : Side} (hl : a.loc = .arr p x) (hw : a.write = true) :
    ∃ m c cs, pc = .w3 p x m (c :: cs) := by
  cases pc with
  | w3 q y m cs =>
    cases cs with
    | nil => simp [PC.accs] at ha
    | cons c cs =>
      simp [PC.accs] at ha
      rcases ha with rfl | rfl
      · simp at hl
      · simp at hl; obtain ⟨rfl, rfl⟩ := hl; exact ⟨m, c, cs, rfl⟩
  | r4 q y dl i => cases dl <;> simp [PC.accs] at ha; subst ha; simp at hl
  | w7 q y m => simp [PC.accs] at ha; rcases ha with rfl | rfl <;> simp at hl
  | r5 q y n => simp [PC.accs] at ha; subst ha; simp at hw
  | _ => first | (simp [PC.accs] at ha; done) | (simp [PC.accs] at ha; subst ha; simp at hl)

theorem excl_index {P : PC → Bool} {ts : List PC} (h : Excl P ts) {i j : Nat} {a b : PC} (hi : ts[i]? = some a)
    (hj : ts[j]? = some b) (ha : P a = true) (hb : P b = true) : i = j := by
  by_contra hne
  obtain ⟨hil, rfl⟩ := List.getElem?_eq_some_iff.mp hi
  obtain ⟨hjl, rfl⟩ := List.getElem?_eq_some_iff.mp hj
  have := List.pairwise_iff_getElem.mp h
  rcases Nat.lt_or_gt_of_ne hne with hlt | hlt
  · rcases this i j hil hjl hlt with h | h <;> simp_all
  · rcases this j i hjl hil hlt with h | h <;> simp_all

/-- **C96, what holds for every history**: the only data race there is is the one between a `Read` that copies a message from
the buffer of the other side and a `Write` into that buffer. Nothing else races: neither the lengths of buffers, nor the
channels sockets read from, nor timers, nor the list of connections. Missing: that one, which there is when a pair is dialled
again too early. -/
theorem C96_only_partial {size : Nat} {s : State} (h : Reachable size s) {i j : Nat} {a b : Acc} (hr : Race s i j a b) :
    ∃ p x n m c cs, a.loc = .arr p x ∧
      ((s.threads[i]? = some (.r5 p x.other n) ∧ s.threads[j]? = some (.w3 p x m (c :: cs))) ∨
        (s.threads[j]? = some (.r5 p x.other n) ∧ s.threads[i]? = some (.w3 p x m (c :: cs)))) := by
  obtain ⟨hne, ⟨t, ht, hta, ch, conns, he⟩, ⟨u, hu, hub, ch', conns', he'⟩, hloc, hw, hlk⟩ := hr
  obtain ⟨h1, h2⟩ := alone h a.loc.guard
  have hmt := List.mem_of_getElem? ht
  have hmu := List.mem_of_getElem? hu
  rcases guarded hta he with ⟨ha, hal, haf⟩ | ha | ⟨p, x, n, rfl, hl, hrd⟩
  · rcases guarded hub he' with ⟨hb, hbl, hbf⟩ | hb | ⟨p, x, n, rfl, hl, hrd⟩
    · rw [← hloc] at hbl
      exact absurd ⟨ha, hal.trans hbl.symm⟩ hlk
    · rw [← hloc] at hb; rw [h1 u hmu hb] at haf; cases haf
    · simp only [hrd, Bool.false_eq_true, or_false] at hw
      obtain ⟨m, c, cs, rfl⟩ := writes_arr hta (hloc.trans hl) hw
      exact ⟨p, x.other, n, m, c, cs, hloc.trans hl, .inr ⟨by simpa using hu, ht⟩⟩
  · rcases guarded hub he' with ⟨hb, hbl, hbf⟩ | hb | ⟨p, x, n, rfl, hl, hrd⟩
    · rw [← hloc, h1 t hmt ha] at hbf; cases hbf
    · rw [← hloc] at hb
      exact absurd (excl_index h2 ht hu ha hb) hne
    · simp only [hrd, Bool.false_eq_true, or_false] at hw
      obtain ⟨m, c, cs, rfl⟩ := writes_arr hta (hloc.trans hl) hw
      exact ⟨p, x.other, n, m, c, cs, hloc.trans hl, .inr ⟨by simpa using hu, ht⟩⟩
  · simp only [hrd, Bool.false_eq_true, false_or] at hw
    obtain ⟨m, c, cs, rfl⟩ := writes_arr hub (hloc.symm.trans hl) hw
    exact ⟨p, x.other, n, m, c, cs, hl, .inl ⟨by simpa using ht, hu⟩⟩

/-- **C96, the part that holds**: if pairs are dialled again only when they are closed and all calls on them have returned
(`Lives`), there are no data races. Missing: pairs dialled again earlier, for which it is false. -/
theorem C96_partial {size : Nat} {s : State} (h : ReachableIf size Lives s) (i j : Nat) (a b : Acc) : ¬ Race s i j a b := by
  intro hr
  obtain ⟨l, hi⟩ := From.lives (fun _ _ h => h) h
  have hreach : Reachable size s := h.any
  obtain ⟨p, x, n, m, c, cs, _, hh⟩ := C96_only_partial hreach hr
  obtain ⟨hm1, hm2⟩ : PC.r5 p x.other n ∈ s.threads ∧ PC.w3 p x m (c :: cs) ∈ s.threads := by
    rcases hh with ⟨h1, h2⟩ | ⟨h1, h2⟩ <;> exact ⟨List.mem_of_getElem? h1, List.mem_of_getElem? h2⟩
  have hd := (hi.life p).uses _ hm1 (by simp [PC.uses])
  have hc := hi.core p x hd
  have hR := the_of_mem (hi.locks p x.other).exclR hm1 (by simp [PC.rd])
  have hW := the_of_mem (hi.locks p x).exclW hm2 (by simp [PC.wr])
  have := (hc.calm (.inr (by simp [hW, PC.early]))).2.1
  simp [hR, PC.took] at this

/-- A reader is about to copy a message, while its writer waits and another one wants the buffer; a pair is being removed from
the list of connections while another one is being added: two accesses to one variable, under its lock. -/
def crowded : List Cmd :=
  .dial 0 :: Cmd.run 7 ++ .dial 1 :: Cmd.run 7 ++ .write 0 .srv [[1]] :: Cmd.run 9 ++ .write 0 .srv [[2]] ::
  .read 0 .clt :: Cmd.run 4 ++ .close 1 .srv :: Cmd.run 5 ++ .dial 2 :: Cmd.run 6

example : ∃ s, ReachableIf 4 Lives s ∧
    s.threads = [.d7 2, .c6 1 .srv .user, .r5 0 .clt 1, .w1 0 .srv [[2]], .w9 0 .srv [1]] ∧
    Does s 0 ⟨.conns, true, some .conns⟩ ∧ Does s 1 ⟨.conns, true, some .conns⟩ ∧ Does s 2 ⟨.arr 0 .srv, false, none⟩ := by
  have hp : ∃ s, play livesOk (init 4) crowded = some s ∧
    s.threads = [.d7 2, .c6 1 .srv .user, .r5 0 .clt 1, .w1 0 .srv [[2]], .w9 0 .srv [1]] := ⟨_, rfl, rfl⟩
  obtain ⟨s, hs, h1⟩ := hp
  refine ⟨s, play_from livesOk_ok crowded .start hs, h1, ⟨_, by simp [h1]; rfl, by simp [PC.accs], false, [], by simp [act]⟩,
    ⟨_, by simp [h1]; rfl, by simp [PC.accs], false, [], by simp [act]⟩,
    ⟨_, by simp [h1]; rfl, by simp [PC.accs, Side.other], false, [], by simp [act]⟩⟩

end Webwire.Mem
