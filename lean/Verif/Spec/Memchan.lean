import Verif.Model.Memchan

/-!
# memchan: what happened, and assumptions on executions
-/

set_option autoImplicit false

namespace Webwire.Mem

/-- The message handed over by that side. -/
def Ev.flushOf (p : Nat) (x : Side) : Ev → Option Bytes
  | .flushed q y d => if q = p ∧ y = x then some d else none
  | _ => none

/-- The message read by that side. -/
def Ev.copyOf (p : Nat) (x : Side) : Ev → Option Bytes
  | .copied q y d => if q = p ∧ y = x then some d else none
  | _ => none

/-- The message written successfully by that side. -/
def Ev.okOf (p : Nat) (x : Side) : Ev → Option Bytes
  | .writeEnd q y d .ok => if q = p ∧ y = x then some d else none
  | _ => none

/-- The messages handed over by that side, in order. -/
def flushes (p : Nat) (x : Side) (log : List Ev) : List Bytes := log.filterMap (Ev.flushOf p x)

/-- The messages that side read, in order. -/
def copies (p : Nat) (x : Side) (log : List Ev) : List Bytes := log.filterMap (Ev.copyOf p x)

/-- The messages that side wrote successfully, in order. -/
def oks (p : Nat) (x : Side) (log : List Ev) : List Bytes := log.filterMap (Ev.okOf p x)

/-- The goroutine is in a `WriteMsg*` call by that side. -/
def PC.writes (p : Nat) (x : Side) : PC → Bool
  | .w1 q y _ | .w2 q y _ | .w3 q y .. | .w4 q y _ | .w5 q y _ | .w6 q y _ | .w7 q y _ | .w8 q y _ | .w9 q y _
  | .w10 q y .. => decide (q = p ∧ y = x)
  | _ => false

/-- The goroutine waits for the writer in `GetWriter`. -/
def PC.wantsWriter (p : Nat) (x : Side) : PC → Bool
  | .w1 q y _ => decide (q = p ∧ y = x)
  | _ => false

/-- The goroutine is past the check of the status and about to hand over its message. -/
def PC.handsOver (p : Nat) : PC → Bool
  | .w6 q .. | .w7 q .. => decide (q = p)
  | _ => false

/-- The goroutine is in `Dial`. -/
def PC.dials (p : Nat) : PC → Bool
  | .d1 q | .d2 q | .d3 q | .d4 q | .d5 q | .d6 q | .d7 q => decide (q = p)
  | _ => false

/-- The goroutine is in `Close`, also as a part of `Read` or `Shutdown`. -/
def PC.closes (p : Nat) : PC → Bool
  | .c1 q .. | .c2 q .. | .c3 q .. | .c4 q .. | .c5 q .. | .c6 q .. => decide (q = p)
  | _ => false

/-- Every pair is dialled successfully at most once, by one goroutine at a time, and is read from, written to and closed
after that. -/
def OneLife (s : State) : Label → Prop
  | .dial p => (∀ pc ∈ s.threads, pc.dials p = false) ∧ Ev.dialEnd p true ∉ s.g.log
  | .write p _ _ | .read p _ _ | .close p _ => Ev.dialEnd p true ∈ s.g.log
  | _ => True

/-- `Shutdown` is to close the pair after that. -/
def Cont.uses (p : Nat) : Cont → Bool
  | .stop rest => decide (p ∈ rest)
  | _ => false

/-- The goroutine reads from the pair, writes to it or closes it, or is in `Shutdown` and is to close it. -/
def PC.uses (p : Nat) : PC → Bool
  | .w1 q .. | .w2 q .. | .w3 q .. | .w4 q .. | .w5 q .. | .w6 q .. | .w7 q .. | .w8 q .. | .w9 q .. | .w10 q ..
  | .r1 q .. | .r2 q .. | .r3 q .. | .r4 q .. | .r5 q .. | .r6 q .. | .r7 q .. => decide (q = p)
  | .c1 q _ k | .c2 q _ k | .c3 q _ k | .c4 q _ k | .c5 q _ k | .c6 q _ k => decide (q = p) || k.uses p
  | _ => false

/-- How the `Dial` ended. -/
def Ev.dialOf (p : Nat) : Ev → Option Bool
  | .dialEnd q b => if q = p then some b else none
  | _ => none

/-- How the last `Dial` of the pair that returned ended. -/
def lastDial (p : Nat) (log : List Ev) : Option Bool := (log.filterMap (Ev.dialOf p)).getLast?

/-- Pairs may be dialled again: by one goroutine at a time, when they are closed and everybody is done with them. They are
read from, written to and closed if they are not being dialled and the last `Dial` succeeded. -/
def Lives (s : State) : Label → Prop
  | .dial p => (∀ pc ∈ s.threads, pc.dials p = false) ∧
      (Ev.dialEnd p true ∉ s.g.log ∨ s.g.connected p = false ∧ ∀ pc ∈ s.threads, pc.uses p = false)
  | .write p _ _ | .read p _ _ | .close p _ => (∀ pc ∈ s.threads, pc.dials p = false) ∧ lastDial p s.g.log = some true
  | _ => True

/-- What happened, cut into pieces: before the first successful `Dial` of the pair, and after each. -/
def lives (p : Nat) (log : List Ev) : List (List Ev) :=
  log.foldl (fun ls e => if e = .dialEnd p true then ls ++ [[]] else ls.dropLast ++ [ls.getLast?.getD [] ++ [e]]) [[]]

/-- The piece since the last successful `Dial`. -/
def lastLife (p : Nat) (log : List Ev) : List Ev := (lives p log).getLast?.getD []

/-- Of what happened: what the other side read is a prefix of what side `x` handed over, everything that was written
successfully has been read, and at most one message is in flight. -/
def Delivered (p : Nat) (x : Side) (l : List Ev) : Prop :=
  oks p x l <+: copies p x.other l ∧ copies p x.other l <+: flushes p x l ∧ (flushes p x l).length ≤ (oks p x l).length + 1

/-- `OneLife`; and no pair is closed while a writer hands over its message. -/
def CalmClose (s : State) (l : Label) : Prop :=
  OneLife s l ∧
  match l with
  | .thread (.c1 p _ _) _ _ => ∀ pc ∈ s.threads, pc.handsOver p = false
  | _ => True

/-- `Lives`; and no pair is closed while a writer hands over its message. -/
def CalmLives (s : State) (l : Label) : Prop :=
  Lives s l ∧
  match l with
  | .thread (.c1 p _ _) _ _ => ∀ pc ∈ s.threads, pc.handsOver p = false
  | _ => True

/-- The goroutine is in `Read`, past the check of the status. -/
def PC.reading (p : Nat) (x : Side) : PC → Bool
  | .r3 q y _ | .r4 q y .. | .r5 q y _ | .r6 q y | .r7 q y => decide (q = p ∧ y = x)
  | _ => false

/-- The goroutine has handed over a message and is about to wait for the confirmation. -/
def PC.handedOver (p : Nat) : PC → Bool
  | .w8 q .. => decide (q = p)
  | _ => false

/-- `CalmClose`; and no pair is closed between a writer handing over its message and starting to wait for the
confirmation, or while it waits for it and a `Read` of the other side, which may have taken the message, is under way. -/
def QuietClose (s : State) (l : Label) : Prop :=
  CalmClose s l ∧
  match l with
  | .thread (.c1 p _ _) _ _ => (∀ pc ∈ s.threads, pc.handedOver p = false) ∧
      ∀ x, (s.g.sock p x).recv = .waiting → ∀ pc ∈ s.threads, pc.reading p x = false
  | _ => True

/-- `CalmLives`, and what `QuietClose` asks for in addition. -/
def QuietLives (s : State) (l : Label) : Prop :=
  CalmLives s l ∧
  match l with
  | .thread (.c1 p _ _) _ _ => (∀ pc ∈ s.threads, pc.handedOver p = false) ∧
      ∀ x, (s.g.sock p x).recv = .waiting → ∀ pc ∈ s.threads, pc.reading p x = false
  | _ => True

/-- Only messages that fit are written, and none that is rejected. -/
def GoodWrites (size : Nat) (_ : State) : Label → Prop
  | .write _ _ chunks => 0 < chunks.flatten.length ∧ chunks.flatten.length ≤ size
  | _ => True

/-- `Shutdown` does not overlap with `Dial`. -/
def CalmStop (s : State) : Label → Prop
  | .thread .s1 _ _ => ∀ p, ∀ pc ∈ s.threads, pc.dials p = false
  | .dial _ => s.g.active = true
  | _ => True

/-- The goroutine is in a `Read` call of that side. -/
def PC.reads (p : Nat) (x : Side) : PC → Bool
  | .r1 q y _ | .r2 q y _ | .r3 q y _ | .r4 q y .. | .r5 q y _ | .r6 q y | .r7 q y
  | .c1 q y (.read _) | .c2 q y (.read _) | .c3 q y (.read _) | .c4 q y (.read _) | .c5 q y (.read _)
  | .c6 q y (.read _) => decide (q = p ∧ y = x)
  | _ => false

/-- The goroutine is in a `Read` call of that side without a deadline, and has not taken a message. -/
def PC.readsForEver (p : Nat) (x : Side) : PC → Bool
  | .r1 q y dl | .r2 q y dl | .r3 q y dl | .r4 q y dl _ => decide (q = p ∧ y = x) && !dl
  | _ => false

/-- Nothing panicked, and no goroutine can go on. -/
def AllWait (s : State) : Prop := s.g.crashed = none ∧ ∀ pc ch conns s', ¬ Step s (.thread pc ch conns) s'

/-- A reason for a goroutine to wait: it is in `Serve`, and the transport is not closed; or it reads from an open
connection, a `Read` without a deadline is under way there and every message of the other side has been read; or it
writes to an open connection, nobody reads on the other side, and the write of every message that was read has
succeeded. -/
def MayWait (s : State) (pc : PC) : Prop :=
  (pc = .v2 ∧ s.g.active = true) ∨
  ∃ p x, s.g.connected p = true ∧
    ((pc.reads p x = true ∧ (∃ a ∈ s.threads, a.readsForEver p x = true) ∧
        flushes p x.other s.g.log = copies p x s.g.log) ∨
     (pc.writes p x = true ∧ (∀ a ∈ s.threads, a.reads p x.other = false) ∧
        copies p x.other s.g.log = oks p x s.g.log))

/-- The same reasons; only messages since the pair was last dialled count. -/
def MayWaitNow (s : State) (pc : PC) : Prop :=
  (pc = .v2 ∧ s.g.active = true) ∨
  ∃ p x, s.g.connected p = true ∧
    ((pc.reads p x = true ∧ (∃ a ∈ s.threads, a.readsForEver p x = true) ∧
        flushes p x.other (lastLife p s.g.log) = copies p x (lastLife p s.g.log)) ∨
     (pc.writes p x = true ∧ (∀ a ∈ s.threads, a.reads p x.other = false) ∧
        copies p x.other (lastLife p s.g.log) = oks p x (lastLife p s.g.log)))

/-- No pair is dialled. -/
def NoDial (_ : State) : Label → Prop
  | .dial _ => False
  | _ => True

/-- Only goroutines already there go on. -/
def NoCall (_ : State) : Label → Prop
  | .thread .. => True
  | _ => False

/-! ## Playing concrete executions, for examples and counterexamples -/

/-- What to do next. -/
inductive Cmd
  | go (i : Nat) (ch : Bool := false) (conns : List Nat := [])
  | write (p : Nat) (x : Side) (chunks : List Bytes)
  | read (p : Nat) (x : Side) (deadline : Bool := false)
  | dial (p : Nat)
  | close (p : Nat) (x : Side)
  | shutdown
  | serve
  | refuse

/-- The label of the step. -/
def Cmd.label (s : State) : Cmd → Option Label
  | .go i ch conns => s.threads[i]?.map fun pc => .thread pc ch conns
  | .write p x chunks => some (.write p x chunks)
  | .read p x dl => some (.read p x dl)
  | .dial p => some (.dial p)
  | .close p x => some (.close p x)
  | .shutdown => some .shutdown
  | .serve => some .serve
  | .refuse => some .refuse

/-- Make the step if possible; not the snapshot of the connections. -/
def exec (s : State) : Cmd → Option State
  | .go i ch conns =>
    match s.threads[i]? with
    | none | some .s2 => none
    | some pc =>
      match act s.g ch conns pc with
      | none => none
      | some (g', pcs) => some ⟨g', s.threads.take i ++ (pcs ++ s.threads.drop (i + 1))⟩
  | .write p x chunks => some ⟨s.g, .w1 p x chunks :: s.threads⟩
  | .read p x dl => some ⟨s.g, .r1 p x dl :: s.threads⟩
  | .dial p => some ⟨s.g, .d1 p :: s.threads⟩
  | .close p x => some ⟨s.g, .c1 p x .user :: s.threads⟩
  | .shutdown => some ⟨s.g, .s1 :: s.threads⟩
  | .serve => some ⟨s.g, .v1 :: s.threads⟩
  | .refuse => some ⟨s.g.refuse, s.threads⟩

/-- Make the steps, each of which has to pass the check. -/
def play (ok : State → Label → Bool) (s : State) : List Cmd → Option State
  | [] => some s
  | cmd :: cmds =>
    if s.g.crashed.isSome then none
    else
      match cmd.label s, exec s cmd with
      | some l, some s' => if ok s l then play ok s' cmds else none
      | _, _ => none

theorem exec_step {s s' : State} {cmd : Cmd} {l : Label} (hc : s.g.crashed = none) (hl : cmd.label s = some l)
    (h : exec s cmd = some s') : Step s l s' := by
  obtain ⟨g, ts⟩ := s
  cases cmd with
  | go i b conns =>
    simp only [Cmd.label, exec] at hl h
    cases hi : ts[i]? with
    | none => simp [hi] at hl
    | some pc =>
      simp only [hi, Option.map_some, Option.some.injEq] at hl h
      subst hl
      split at h
      · cases h
      · rename_i e; cases e; cases h
      · rename_i pc' hs e
        cases e
        split at h
        · cases h
        · rename_i g' pcs ha
          cases h
          have hts : ts = ts.take i ++ pc :: ts.drop (i + 1) := by
            obtain ⟨hlt, hpc⟩ := List.getElem?_eq_some_iff.mp hi
            rw [← hpc, ← List.drop_eq_getElem_cons hlt, List.take_append_drop]
          have := Step.thread g g' (ts.take i) (ts.drop (i + 1)) pcs pc b conns hc (fun e => absurd e hs) ha
          rw [← hts] at this
          exact this
  | write => simp only [Cmd.label, exec, Option.some.injEq] at hl h; subst hl; subst h; exact .write _ _ _ _ _ hc
  | read => simp only [Cmd.label, exec, Option.some.injEq] at hl h; subst hl; subst h; exact .read _ _ _ _ _ hc
  | dial => simp only [Cmd.label, exec, Option.some.injEq] at hl h; subst hl; subst h; exact .dial _ _ _ hc
  | close => simp only [Cmd.label, exec, Option.some.injEq] at hl h; subst hl; subst h; exact .close _ _ _ _ hc
  | shutdown => simp only [Cmd.label, exec, Option.some.injEq] at hl h; subst hl; subst h; exact .shutdown _ _ hc
  | serve => simp only [Cmd.label, exec, Option.some.injEq] at hl h; subst hl; subst h; exact .serve _ _ hc
  | refuse => simp only [Cmd.label, exec, Option.some.injEq] at hl h; subst hl; subst h; exact .refuse _ _ hc

theorem play_from {ok : State → Label → Prop} {okb : State → Label → Bool}
    (hok : ∀ s l, okb s l = true → ok s l) (cmds : List Cmd) {s0 s s' : State} (hr : From ok s0 s)
    (h : play okb s cmds = some s') : From ok s0 s' := by
  induction cmds generalizing s with
  | nil => cases h; exact hr
  | cons cmd cmds ih =>
    simp only [play] at h
    split at h
    · cases h
    · rename_i hc
      split at h
      · rename_i l s1 hl he
        split at h
        · rename_i hb
          exact ih (.step s l s1 hr (hok s l hb) (exec_step (by simpa using hc) hl he)) h
        · cases h
      · cases h

/-- `OneLife`, computed. -/
def oneLife (s : State) : Label → Bool
  | .dial p => (s.threads.all fun pc => !pc.dials p) && decide (Ev.dialEnd p true ∉ s.g.log)
  | .write p _ _ | .read p _ _ | .close p _ => decide (Ev.dialEnd p true ∈ s.g.log)
  | _ => true

theorem oneLife_ok (s : State) (l : Label) (h : oneLife s l = true) : OneLife s l := by
  cases l <;> simp_all [oneLife, OneLife]

/-- `Lives`, computed. -/
def livesOk (s : State) : Label → Bool
  | .dial p => (s.threads.all fun pc => !pc.dials p) &&
      (decide (Ev.dialEnd p true ∉ s.g.log) || (!s.g.connected p && s.threads.all fun pc => !pc.uses p))
  | .write p _ _ | .read p _ _ | .close p _ =>
    (s.threads.all fun pc => !pc.dials p) && decide (lastDial p s.g.log = some true)
  | _ => true

theorem livesOk_ok (s : State) (l : Label) (h : livesOk s l = true) : Lives s l := by
  cases l <;> simp_all [livesOk, Lives]

/-- `CalmClose`, computed. -/
def calmClose (s : State) (l : Label) : Bool :=
  oneLife s l &&
  match l with
  | .thread (.c1 p _ _) _ _ => s.threads.all fun pc => !pc.handsOver p
  | _ => true

theorem calmClose_ok (s : State) (l : Label) (h : calmClose s l = true) : CalmClose s l := by
  simp only [calmClose, Bool.and_eq_true] at h
  refine ⟨oneLife_ok s l h.1, ?_⟩
  have h2 := h.2
  split <;> simp_all

/-- `CalmLives`, computed. -/
def calmLives (s : State) (l : Label) : Bool :=
  livesOk s l &&
  match l with
  | .thread (.c1 p _ _) _ _ => s.threads.all fun pc => !pc.handsOver p
  | _ => true

theorem calmLives_ok (s : State) (l : Label) (h : calmLives s l = true) : CalmLives s l := by
  simp only [calmLives, Bool.and_eq_true] at h
  refine ⟨livesOk_ok s l h.1, ?_⟩
  have h2 := h.2
  split <;> simp_all

/-- `QuietClose`, computed. -/
def quietClose (s : State) (l : Label) : Bool :=
  calmClose s l &&
  match l with
  | .thread (.c1 p _ _) _ _ => s.threads.all fun pc => !pc.handedOver p &&
      ((s.g.sock p .clt).recv != .waiting || !pc.reading p .clt) &&
      ((s.g.sock p .srv).recv != .waiting || !pc.reading p .srv)
  | _ => true

theorem quietClose_ok (s : State) (l : Label) (h : quietClose s l = true) : QuietClose s l := by
  simp only [quietClose, Bool.and_eq_true] at h
  refine ⟨calmClose_ok s l h.1, ?_⟩
  have h2 := h.2
  split
  · simp only [List.all_eq_true, Bool.and_eq_true, Bool.or_eq_true, Bool.not_eq_true', bne_iff_ne] at h2
    refine ⟨fun a ha => (h2 a ha).1.1, fun x hx a ha => ?_⟩
    cases x
    · rcases (h2 a ha).2 with e | e
      · exact absurd hx e
      · exact e
    · rcases (h2 a ha).1.2 with e | e
      · exact absurd hx e
      · exact e
  · trivial

/-- `QuietLives`, computed. -/
def quietLives (s : State) (l : Label) : Bool :=
  calmLives s l &&
  match l with
  | .thread (.c1 p _ _) _ _ => s.threads.all fun pc => !pc.handedOver p &&
      ((s.g.sock p .clt).recv != .waiting || !pc.reading p .clt) &&
      ((s.g.sock p .srv).recv != .waiting || !pc.reading p .srv)
  | _ => true

theorem quietLives_ok (s : State) (l : Label) (h : quietLives s l = true) : QuietLives s l := by
  simp only [quietLives, Bool.and_eq_true] at h
  refine ⟨calmLives_ok s l h.1, ?_⟩
  have h2 := h.2
  split
  · simp only [List.all_eq_true, Bool.and_eq_true, Bool.or_eq_true, Bool.not_eq_true', bne_iff_ne] at h2
    refine ⟨fun a ha => (h2 a ha).1.1, fun x hx a ha => ?_⟩
    cases x
    · rcases (h2 a ha).2 with e | e
      · exact absurd hx e
      · exact e
    · rcases (h2 a ha).1.2 with e | e
      · exact absurd hx e
      · exact e
  · trivial

/-- Steps that make a whole call of one goroutine at the head of the list: `n` steps. -/
def Cmd.run (n : Nat) : List Cmd := List.replicate n (.go 0)

end Webwire.Mem
