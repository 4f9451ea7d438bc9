import Verif.Props.Lifecycle

/-!
# C27: by how much the count of operations is off
-/

set_option autoImplicit false

namespace Webwire.Life
namespace Spec

/-- In this step a message that needs no reply gets past the check of the shutdown flag though the server is shutting down. -/
def LateSignal (s : State) (l : Label) : Prop :=
  s.g.shutdown = true ∧ ∃ c m ch, l = .thread (.counting c m) ch ∧ m.requiresReply = false

/-- The states after any finite execution in which every step satisfies `ok`, and how many signals were late. -/
inductive Miscounted (ok : State → Label → Prop) : State → Nat → Prop
  | start : Miscounted ok {} 0
  | late (s : State) (l : Label) (s' : State) (n : Nat) : Miscounted ok s n → ok s l → LateSignal s l → Step s l s' →
      Miscounted ok s' (n + 1)
  | other (s : State) (l : Label) (s' : State) (n : Nat) : Miscounted ok s n → ok s l → ¬ LateSignal s l → Step s l s' →
      Miscounted ok s' n

/-- What can come after a state, and how many signals were late by then. -/
inductive Later (ok : State → Label → Prop) (s : State) (n : Nat) : State → Nat → Prop
  | same : Later ok s n s n
  | late (s1 : State) (l : Label) (s2 : State) (n1 : Nat) : Later ok s n s1 n1 → ok s1 l → LateSignal s1 l →
      Step s1 l s2 → Later ok s n s2 (n1 + 1)
  | other (s1 : State) (l : Label) (s2 : State) (n1 : Nat) : Later ok s n s1 n1 → ok s1 l → ¬ LateSignal s1 l →
      Step s1 l s2 → Later ok s n s2 n1

/-- Goroutines that handle a message, from the check of the shutdown flag until they are done. -/
def handles : PC → Bool
  | .tasking .. | .dispatching .. | .starting .. | .running .. | .uncounting .. => true
  | _ => false

end Spec

open Spec (LateSignal Miscounted Later handles FewGoroutines WritersOk)

variable {ok : State → Label → Prop}

/-- Every execution has a number of late signals. -/
theorem miscounted_of_reachable (s : State) (h : ReachableIf ok s) : ∃ n, Miscounted ok s n := by
  induction h with
  | start => exact ⟨0, .start⟩
  | step s l s' _ ho hst ih =>
    obtain ⟨n, hn⟩ := ih
    by_cases hl : LateSignal s l
    · exact ⟨n + 1, .late _ _ _ _ hn ho hl hst⟩
    · exact ⟨n, .other _ _ _ _ hn ho hl hst⟩

private def lateBy (g : G) : PC → Int
  | .counting _ m => if g.shutdown = true ∧ m.requiresReply = false then 1 else 0
  | _ => 0

private theorem Acts.counts {g g' : G} {ch : Choice} {pc : PC} {pcs : List PC} (h : Acts g ch pc g' pcs)
    (hc : g'.crashed = none) :
    ∃ d : Int, ((g'.currentOps.toNat : Int) = (g.currentOps.toNat + d) % 2 ^ 32) ∧
      ((pcs.countP handles : Nat) : Int) = [pc].countP handles + d + lateBy g pc ∧
      (g.shutdown = true → d ≤ 0 ∧ g'.shutdown = true) ∧
      (g'.rdyClosed = true → g.rdyClosed = true ∨ (g.shutdown = true ∧ g'.currentOps.toNat = 0 ∧ lateBy g pc = 0)) := by
  have hlt := g.currentOps.toNat_lt
  have hre : ∀ c inl, (resume c inl).countP handles = 0 := by intro c inl; cases inl <;> rfl
  have hcl : ∀ c rd, (closed c rd).countP handles = 0 := by intro c rd; cases rd <;> rfl
  cases h with
  | count c m hs =>
    refine ⟨1, ?_, by simp [handles, lateBy, hs], by simp [hs], fun h => .inl h⟩
    simp only [UInt32.toNat_add, UInt32.reduceToNat]; omega
  | late c m hs hr => exact ⟨0, by omega, by simp [handles, lateBy, hs, hr], by simp, fun h => .inl h⟩
  | refuse c m hs hr => exact ⟨0, by omega, by simp [handles, lateBy, hr], by simp, fun h => .inl h⟩
  | ready c inl hs h0 _ =>
    have h1 : (g.currentOps - 1).toNat = 0 := by
      rw [UInt32.lt_iff_toNat_lt] at h0
      simp only [UInt32.reduceToNat] at h0
      omega
    refine ⟨-1, ?_, by simp [handles, lateBy], by simp [hs], fun _ => .inr ⟨hs, h1, rfl⟩⟩
    simp only [UInt32.toNat_sub, UInt32.reduceToNat]; omega
  | uncount c inl =>
    refine ⟨-1, ?_, by simp [handles, lateBy], by simp, fun h => .inl h⟩
    simp only [UInt32.toNat_sub, UInt32.reduceToNat]; omega
  | closeTwice => simp [G.crash] at hc
  | nilWriter => simp [G.crash] at hc
  | badRelease => simp [G.crash] at hc
  | _ =>
    refine ⟨0, ?_, ?_, ?_, ?_⟩
    · first | (simp only [G.ev, G.upd, unlinked]; omega) | omega
    · first | (rw [hre]; rfl) | (rw [hcl]; rfl) | rfl
    · first | exact fun h => ⟨le_refl _, h⟩ | simp [G.ev, G.upd, unlinked]
    · first | exact fun h => .inl h | simp [G.ev, G.upd, unlinked]

/-- C27: in every execution the count of operations is the number of messages being handled less the number of signals
that arrived during a shutdown, up to multiples of 2^32 (until the server crashes). -/
theorem C27_miscount (s : State) (n : Nat) (h : Miscounted ok s n) (hc : s.g.crashed = none) :
    (s.g.currentOps.toNat : Int) = ((s.threads.countP handles : Int) - n) % 2 ^ 32 := by
  induction h with
  | start => rfl
  | late s l s' n _ _ hl hst ih =>
    obtain ⟨hs, c, m, ch, rfl, hr⟩ := hl
    cases hst with
    | thread g g' pre post pcs pc ch hc0 hact =>
      have := ih hc0
      obtain ⟨d, h1, h2, _, _⟩ := Acts.counts (acts_of_act hact) hc
      have h3 : lateBy g (.counting c m) = 1 := if_pos ⟨hs, hr⟩
      simp only [List.countP_append, List.countP_cons, List.countP_nil] at this h2 ⊢
      omega
  | other s l s' n _ _ hl hst ih =>
    cases hst with
    | thread g g' pre post pcs pc ch hc0 hact =>
      have := ih hc0
      obtain ⟨d, h1, h2, _, _⟩ := Acts.counts (acts_of_act hact) hc
      have h3 : lateBy g pc = 0 := by
        cases pc with
        | counting c m => exact if_neg fun ⟨hs, hr⟩ => hl ⟨hs, c, m, ch, rfl, hr⟩
        | _ => rfl
      simp only [List.countP_append, List.countP_cons, List.countP_nil] at this h2 ⊢
      omega
    | connect g ts c limit hc0 => simpa [handles] using ih hc0
    | close g ts c hc0 => simpa [handles] using ih hc0
    | shutdown g ts hc0 => simpa [handles] using ih hc0

/-- C27: so a `Shutdown` called while nothing is being handled goes on at once exactly if the number of late signals there
were is a multiple of 2^32; otherwise it has to wait, for nothing. -/
theorem C27_called_when_idle (s : State) (n : Nat) (h : Miscounted ok s n) (hc : s.g.crashed = none)
    (hi : ∀ pc ∈ s.threads, handles pc = false) (ch : Choice) :
    (∃ g', act s.g ch .stopping = some (g', [if 2 ^ 32 ∣ n then .stoppingTransport else .waiting])) := by
  have h1 := C27_miscount s n h hc
  rw [List.countP_eq_zero.mpr (by simpa using hi)] at h1
  simp only [act, actStopping, Option.some.injEq, Prod.mk.injEq, List.cons.injEq, and_true]
  have h2 : s.g.currentOps < 1 ↔ 2 ^ 32 ∣ n := by
    rw [UInt32.lt_iff_toNat_lt]
    simp only [UInt32.reduceToNat]
    omega
  exact ⟨_, rfl, by simp only [h2]⟩

/-- C27: a goroutine that is done with a message lets the waiting `Shutdown` go exactly if the messages still in progress
after it are as many as there were late signals (up to multiples of 2^32), and if `Shutdown` was let go before, that is
when the server crashes. -/
theorem C27_done (s : State) (n : Nat) (h : Miscounted ok s n) (hc : s.g.crashed = none) (c : ConnId) (inl : Bool)
    (ch : Choice) :
    ∃ g' pcs, act s.g ch (.uncounting c inl) = some (g', pcs) ∧
      (g'.rdyClosed = true ↔ s.g.rdyClosed = true ∨
        (s.g.shutdown = true ∧ (2 ^ 32 : Int) ∣ (s.threads.countP handles : Int) - 1 - n)) ∧
      (g'.crashed ≠ none ↔ s.g.rdyClosed = true ∧ s.g.shutdown = true ∧
        (2 ^ 32 : Int) ∣ (s.threads.countP handles : Int) - 1 - n) := by
  have h1 := C27_miscount s n h hc
  have hlt := s.g.currentOps.toNat_lt
  have h2 : s.g.currentOps - 1 < 1 ↔ (2 ^ 32 : Int) ∣ (s.threads.countP handles : Int) - 1 - n := by
    rw [UInt32.lt_iff_toNat_lt, UInt32.toNat_sub]
    simp only [UInt32.reduceToNat]
    omega
  rw [← h2]
  refine ⟨(actUncounting s.g c inl).1, (actUncounting s.g c inl).2, rfl, ?_⟩
  by_cases hs : s.g.shutdown = true ∧ s.g.currentOps - 1 < 1
  · by_cases hr : s.g.rdyClosed = true
    · simp [actUncounting, hs, hr, G.crash]
    · simp [actUncounting, hs, hr, hc]
  · have hu : actUncounting s.g c inl = ({ s.g with currentOps := s.g.currentOps - 1 }, [.untasking c inl]) := if_neg hs
    rw [hu]
    simp only [hc, hs, or_false, and_false, ne_eq, not_true_eq_false, and_self]

/-- `Miscounted` adds nothing to `Reachable` but the number. -/
theorem reachable_of_miscounted (s : State) (n : Nat) (h : Miscounted ok s n) : Reachable s := by
  induction h with
  | start => exact .start
  | late s l s' n _ _ _ hst ih => exact .step s l s' ih trivial hst
  | other s l s' n _ _ _ hst ih => exact .step s l s' ih trivial hst

/-- C29: the server crashes in exactly two situations: it refuses a request and there is no writer, or a goroutine is done
with a message after `Shutdown` was let go already and as many messages are still in progress as there were late signals
(up to multiples of 2^32). -/
theorem C29_crash_iff (s s' : State) (l : Label) (n : Nat) (h : Miscounted ok s n) (hc : s.g.crashed = none)
    (hst : Step s l s') :
    s'.g.crashed ≠ none ↔ (∃ c m ch, l = .thread (.refusing c m) ch ∧ ch.writerOk = false) ∨
      (s.g.rdyClosed = true ∧ s.g.shutdown = true ∧ (2 ^ 32 : Int) ∣ (s.threads.countP handles : Int) - 1 - n ∧
        ∃ c inl ch, l = .thread (.uncounting c inl) ch) := by
  have hd := C27_done s n h hc
  have hi := (reachable_of_miscounted s n h).inv
  cases hst with
  | thread g g' pre post pcs pc ch hc hact =>
    by_cases hu : ∃ c inl, pc = .uncounting c inl
    · obtain ⟨c, inl, rfl⟩ := hu
      obtain ⟨g1, p1, h1, _, h3⟩ := hd c inl ch
      rw [hact] at h1
      simp only [Option.some.injEq, Prod.mk.injEq] at h1
      obtain ⟨rfl, rfl⟩ := h1
      rw [h3]
      simp
    · have hn : ¬ ∃ c inl ch', Label.thread pc ch = .thread (.uncounting c inl) ch' := by
        rintro ⟨c, inl, ch', he⟩
        exact hu ⟨c, inl, by injection he⟩
      simp only [hn, and_false, or_false]
      have ha := acts_of_act hact
      cases ha
      case nilWriter c m hw => simp [G.crash, hw]
      case badRelease c inl hl hsl =>
        have := hi.slots c hl
        simp only [List.countP_append, List.countP_cons, PC.holdsSlot] at this
        simp at this hsl
        omega
      case uncount c inl _ => exact absurd ⟨c, inl, rfl⟩ hu
      case ready c inl _ _ _ => exact absurd ⟨c, inl, rfl⟩ hu
      case closeTwice c inl _ _ _ => exact absurd ⟨c, inl, rfl⟩ hu
      all_goals simp_all [G.ev, G.upd, unlinked]
  | connect => simpa using hc
  | close => simpa using hc
  | shutdown => simpa using hc

private theorem few_handles (s : State) (l : Label) (h : FewGoroutines s l) : s.threads.countP handles < 2 ^ 32 := by
  have := List.countP_le_length (p := handles) (l := s.threads)
  unfold FewGoroutines at h
  omega

private theorem let_go (hok : ∀ s l, ok s l → FewGoroutines s l) (s : State) (n : Nat) (h : Miscounted ok s n) :
    n < 2 ^ 32 → s.g.crashed = none → s.g.rdyClosed = true →
    s.g.shutdown = true ∧ ((s.threads.countP handles : Nat) : Int) - n ≤ 0 := by
  induction h with
  | start => intro _ _ h; simp at h
  | late s l s' n hm ho hl hst ih =>
    intro hn hc hr
    have hm' := C27_miscount _ _ (.late _ _ _ _ hm ho hl hst) hc
    obtain ⟨hs, c, m, ch, rfl, hrr⟩ := hl
    cases hst with
    | thread g g' pre post pcs pc ch hc0 hact =>
      obtain ⟨d, h1, h2, h3, h4⟩ := Acts.counts (acts_of_act hact) hc
      have hlb : lateBy g (.counting c m) = 1 := if_pos ⟨hs, hrr⟩
      have h5 := h3 hs
      refine ⟨h5.2, ?_⟩
      rcases h4 hr with h4 | ⟨_, _, h4⟩
      · have := (ih (by omega) hc0 h4).2
        simp only [List.countP_append, List.countP_cons, List.countP_nil] at this h2 ⊢
        omega
      · omega
  | other s l s' n hm ho hl hst ih =>
    intro hn hc hr
    have hf := few_handles s l (hok s l ho)
    have hm' := C27_miscount _ _ (.other _ _ _ _ hm ho hl hst) hc
    cases hst with
    | thread g g' pre post pcs pc ch hc0 hact =>
      obtain ⟨d, h1, h2, h3, h4⟩ := Acts.counts (acts_of_act hact) hc
      have hlb : lateBy g pc = 0 := by
        cases pc with
        | counting c m => exact if_neg fun ⟨hs, hr⟩ => hl ⟨hs, c, m, ch, rfl, hr⟩
        | _ => rfl
      rcases h4 hr with h4 | ⟨hs, h0, _⟩
      · have hi := ih hn hc0 h4
        have h5 := h3 hi.1
        have := hi.2
        refine ⟨h5.2, ?_⟩
        simp only [List.countP_append, List.countP_cons, List.countP_nil] at this h2 ⊢
        omega
      · have h5 := h3 hs
        refine ⟨h5.2, ?_⟩
        simp only [List.countP_append, List.countP_cons, List.countP_nil] at hf hm' h2 ⊢
        omega
    | connect g ts c limit hc0 => simpa [handles] using ih hn hc0 hr
    | close g ts c hc0 => simpa [handles] using ih hn hc0 hr
    | shutdown g ts hc0 => simpa [handles] using ih hn hc0 hr

/-- C29: with fewer than 2^32 goroutines and late signals the server can crash for one reason only: it refuses a request
and there is no writer. -/
theorem C29_crash_reason (hok : ∀ s l, ok s l → FewGoroutines s l) (s s' : State) (l : Label) (n : Nat)
    (h : Miscounted ok s n) (hn : n < 2 ^ 32) (hc : s.g.crashed = none) (hst : Step s l s') (hl : FewGoroutines s l) :
    s'.g.crashed ≠ none ↔ ∃ c m ch, l = .thread (.refusing c m) ch ∧ ch.writerOk = false := by
  rw [C29_crash_iff s s' l n h hc hst]
  refine ⟨?_, .inl⟩
  rintro (h1 | ⟨hr, hs, hd, c, inl, ch, rfl⟩)
  · exact h1
  · exfalso
    have h1 := (let_go hok s n h hn hc hr).2
    cases hst with
    | thread g g' pre post pcs pc ch hc0 hact =>
      simp only [List.countP_append, List.countP_cons, handles, if_true] at h1 hd
      omega

/-- C29 (partial): if writers are available the server never crashes by an operation of its own (with fewer than 2^32
goroutines and late signals), signals that arrive during the shutdown or not. Missing: sockets without writers, for which it
is false. -/
theorem C29_no_crash_signals_partial (s : State) (n : Nat)
    (h : Miscounted (fun s l => FewGoroutines s l ∧ WritersOk s l) s n) : n < 2 ^ 32 → s.g.crashed = none := by
  induction h with
  | start => exact fun _ => rfl
  | late s l s' n hm ho _ hst ih =>
    intro hn
    by_contra hx
    obtain ⟨c, m, ch, rfl, hw⟩ := (C29_crash_reason (fun _ _ h => h.1) s s' l n hm (by omega) (ih (by omega)) hst ho.1).mp hx
    rw [ho.2 _ _ rfl] at hw
    cases hw
  | other s l s' n hm ho _ hst ih =>
    intro hn
    by_contra hx
    obtain ⟨c, m, ch, rfl, hw⟩ := (C29_crash_reason (fun _ _ h => h.1) s s' l n hm hn (ih hn) hst ho.1).mp hx
    rw [ho.2 _ _ rfl] at hw
    cases hw

private theorem later_miscounted {s s' : State} {n n' : Nat} (h : Miscounted ok s n) (hl : Later ok s n s' n') :
    Miscounted ok s' n' := by
  induction hl with
  | same => exact h
  | late s1 l s2 n1 _ ho hl hst ih => exact .late s1 l s2 n1 ih ho hl hst
  | other s1 l s2 n1 _ ho hl hst ih => exact .other s1 l s2 n1 ih ho hl hst

/-- C27: a `Shutdown` that waits after more signals were late than there are messages in progress waits for ever (unless
there are 2^32 late signals some time), whatever happens, even when nothing is being handled any more. -/
theorem C27_waits_for_ever (hok : ∀ s l, ok s l → FewGoroutines s l) (s s' : State) (n n' : Nat) (h : Miscounted ok s n)
    (hs : s.g.shutdown = true) (hr : s.g.rdyClosed = false) (hw : .waiting ∈ s.threads)
    (hn : s.threads.countP handles < n) (hl : Later ok s n s' n') :
    n' < 2 ^ 32 → .waiting ∈ s'.threads ∧ (s'.g.crashed = none → ∀ ch, act s'.g ch .waiting = none) := by
  suffices hx : n' < 2 ^ 32 → .waiting ∈ s'.threads ∧ (s'.g.crashed = none → s'.g.shutdown = true ∧
      s'.g.rdyClosed = false ∧ s'.threads.countP handles < n') by
    intro h1
    obtain ⟨h2, h3⟩ := hx h1
    exact ⟨h2, fun hc ch => by simp [act, (h3 hc).2.1]⟩
  induction hl with
  | same => exact fun _ => ⟨hw, fun _ => ⟨hs, hr, hn⟩⟩
  | late s1 l s2 n1 hl ho hlate hst ih =>
    intro h1
    obtain ⟨w1, h2⟩ := ih (by omega)
    have hlate' := hlate
    obtain ⟨hs1, c, m, ch, rfl, hrr⟩ := hlate'
    cases hst with
    | thread g g' pre post pcs pc ch hc0 hact =>
      refine ⟨?_, fun hc => ?_⟩
      · simp only [List.mem_append, List.mem_cons] at w1 ⊢
        rcases w1 with w1 | w1 | w1
        · exact .inl w1
        · cases w1
        · exact .inr (.inr w1)
      · obtain ⟨d, e1, e2, e3, e4⟩ := Acts.counts (acts_of_act hact) hc
        have hlb : lateBy g (.counting c m) = 1 := if_pos ⟨hs1, hrr⟩
        obtain ⟨_, h3, h4⟩ := h2 hc0
        have h5 := e3 hs1
        refine ⟨h5.2, ?_, ?_⟩
        · by_contra hb
          rcases e4 (by simpa using hb) with h6 | ⟨_, _, h6⟩
          · simp only at h3; rw [h3] at h6; cases h6
          · omega
        · simp only [List.countP_append, List.countP_cons, List.countP_nil] at h4 e2 ⊢
          omega
  | other s1 l s2 n1 hl ho hlate hst ih =>
    intro h1
    obtain ⟨w1, h2⟩ := ih h1
    have hm := C27_miscount s2 n1 (later_miscounted h (.other s1 l s2 n1 hl ho hlate hst))
    have hf := few_handles s1 l (hok s1 l ho)
    cases hst with
    | thread g g' pre post pcs pc ch hc0 hact =>
      refine ⟨?_, fun hc => ?_⟩
      · simp only [List.mem_append, List.mem_cons] at w1 ⊢
        rcases w1 with w1 | w1 | w1
        · exact .inl w1
        · subst w1
          have h6 : g.rdyClosed = false := (h2 hc0).2.1
          simp [act, h6] at hact
        · exact .inr (.inr w1)
      · obtain ⟨d, e1, e2, e3, e4⟩ := Acts.counts (acts_of_act hact) hc
        have hlb : lateBy g pc = 0 := by
          cases pc with
          | counting c m => exact if_neg fun ⟨hs, hr⟩ => hlate ⟨hs, c, m, ch, rfl, hr⟩
          | _ => rfl
        obtain ⟨hs1, h3, h4⟩ := h2 hc0
        have h5 := e3 hs1
        have hm := hm hc
        refine ⟨h5.2, ?_, ?_⟩
        · by_contra hb
          rcases e4 (by simpa using hb) with h6 | ⟨_, h6, _⟩
          · simp only at h3; rw [h3] at h6; cases h6
          · simp only [List.countP_append, List.countP_cons, List.countP_nil] at h4 e2 hm
            omega
        · simp only [List.countP_append, List.countP_cons, List.countP_nil] at h4 e2 ⊢
          omega
    | connect g ts c limit hc0 hu =>
      refine ⟨List.mem_cons_of_mem _ w1, fun hc => ?_⟩
      simpa [handles] using h2 hc
    | close g ts c hc0 hu =>
      refine ⟨List.mem_cons_of_mem _ w1, fun hc => ?_⟩
      simpa [handles] using h2 hc
    | shutdown g ts hc0 =>
      refine ⟨List.mem_cons_of_mem _ w1, fun hc => ?_⟩
      simpa [handles] using h2 hc

private theorem Acts.gone {g g' : G} {ch : Choice} {pc : PC} {pcs : List PC} (h : Acts g ch pc g' pcs)
    (hc : g'.crashed = none)
    (hg : g'.rdyClosed = true ∨ .stoppingTransport ∈ pcs ∨ .transportDown ∈ g'.log) :
    (g.rdyClosed = true ∨ pc = .stoppingTransport ∨ .transportDown ∈ g.log) ∨
      (g'.shutdown = true ∧ g'.currentOps.toNat = 0 ∧ pcs.countP handles ≤ [pc].countP handles) := by
  have hre : ∀ c inl, PC.stoppingTransport ∉ resume c inl := by intro c inl; cases inl <;> simp [resume]
  have hcl : ∀ c rd, PC.stoppingTransport ∉ closed c rd := by intro c rd; cases rd <;> simp [closed]
  cases h with
  | ready c inl hs h0 hr =>
    refine .inr ⟨hs, ?_, by simp [handles]⟩
    show (g.currentOps - 1).toNat = 0
    rw [UInt32.lt_iff_toNat_lt] at h0
    simp only [UInt32.reduceToNat] at h0
    omega
  | stopNow h0 =>
    refine .inr ⟨rfl, ?_, by simp [handles]⟩
    rw [UInt32.lt_iff_toNat_lt] at h0
    simp only [UInt32.reduceToNat, G.ev] at h0 ⊢
    omega
  | awake hr => exact .inl (.inl hr)
  | down => exact .inl (.inr (.inl rfl))
  | closeTwice => simp [G.crash] at hc
  | nilWriter => simp [G.crash] at hc
  | badRelease => simp [G.crash] at hc
  | _ =>
    refine .inl ?_
    rcases hg with hg | hg | hg
    · exact .inl hg
    · first | exact absurd hg (hre _ _) | exact absurd hg (hcl _ _) | (simp at hg)
    · exact .inr (.inr (by simpa [G.ev, G.upd, unlinked] using hg))

/-- C27: the messages still being handled when `Shutdown` goes on to shut down the transport, and ever after, are no more
than the signals that were late (with fewer than 2^32 goroutines and late signals). So without late signals `Shutdown`
waits for all handlers, and every late signal makes it miss one at most. -/
theorem C27_leaves_behind (hok : ∀ s l, ok s l → FewGoroutines s l) (s : State) (n : Nat) (h : Miscounted ok s n) :
    n < 2 ^ 32 → s.g.crashed = none →
    (s.g.rdyClosed = true ∨ .stoppingTransport ∈ s.threads ∨ .transportDown ∈ s.g.log) →
    s.g.shutdown = true ∧ s.threads.countP handles ≤ n := by
  induction h with
  | start => intro _ _ h; simp at h
  | late s l s' n hm ho hl hst ih =>
    intro hn hc hr
    obtain ⟨hs, c, m, ch, rfl, hrr⟩ := hl
    cases hst with
    | thread g g' pre post pcs pc ch hc0 hact =>
      have hs : g.shutdown = true := hs
      have he : act g ch (.counting c m) = some (g, [.tasking c m]) := by simp [act, actCounting, hs, hrr]
      rw [he] at hact
      simp only [Option.some.injEq, Prod.mk.injEq] at hact
      obtain ⟨rfl, rfl⟩ := hact
      have := (ih (by omega) hc0 (by simpa using hr)).2
      refine ⟨hs, ?_⟩
      simp only [List.countP_append, List.countP_cons, List.countP_nil, handles] at this ⊢
      simp at this ⊢
      omega
  | other s l s' n hm ho hl hst ih =>
    intro hn hc hr
    have hf := few_handles s l (hok s l ho)
    have hm' := C27_miscount _ _ (.other _ _ _ _ hm ho hl hst) hc
    cases hst with
    | thread g g' pre post pcs pc ch hc0 hact =>
      have ha := acts_of_act hact
      obtain ⟨d, h1, h2, h3, h4⟩ := ha.counts hc
      have hlb : lateBy g pc = 0 := by
        cases pc with
        | counting c m => exact if_neg fun ⟨hs, hr⟩ => hl ⟨hs, c, m, ch, rfl, hr⟩
        | _ => rfl
      have old : (g.rdyClosed = true ∨ .stoppingTransport ∈ pre ++ pc :: post ∨ .transportDown ∈ g.log) →
          g'.shutdown = true ∧ (pre ++ (pcs ++ post)).countP handles ≤ n := by
        intro hg
        have hi := ih hn hc0 hg
        have h5 := h3 hi.1
        have := hi.2
        refine ⟨h5.2, ?_⟩
        simp only [List.countP_append, List.countP_cons, List.countP_nil] at this h2 ⊢
        omega
      have new : (g'.rdyClosed = true ∨ .stoppingTransport ∈ pcs ∨ .transportDown ∈ g'.log) →
          g'.shutdown = true ∧ (pre ++ (pcs ++ post)).countP handles ≤ n := by
        intro hg
        rcases ha.gone hc hg with (hx | hx | hx) | ⟨hs, h0, hle⟩
        · exact old (.inl hx)
        · exact old (.inr (.inl (by simp [hx])))
        · exact old (.inr (.inr hx))
        · refine ⟨hs, ?_⟩
          simp only [List.countP_append, List.countP_cons, List.countP_nil] at hf hm' hle ⊢
          omega
      simp only [List.mem_append] at hr
      rcases hr with hr | (hr | hr | hr) | hr
      · exact new (.inl hr)
      · exact old (.inr (.inl (by simp [hr])))
      · exact new (.inr (.inl hr))
      · exact old (.inr (.inl (by simp [hr])))
      · exact new (.inr (.inr hr))
    | connect g ts c limit hc0 => simpa [handles] using ih hn hc0 (by simpa using hr)
    | close g ts c hc0 => simpa [handles] using ih hn hc0 (by simpa using hr)
    | shutdown g ts hc0 => simpa [handles] using ih hn hc0 (by simpa using hr)

/-- C27: in terms of calls: of no connection are there more handlers running then than there were late signals. -/
theorem C27_handlers_left (hok : ∀ s l, ok s l → FewGoroutines s l) (s : State) (n : Nat) (h : Miscounted ok s n)
    (hn : n < 2 ^ 32) (hc : s.g.crashed = none) (hd : .transportDown ∈ s.g.log) (c : ConnId) :
    handlersRunning s.g.log c ≤ n := by
  have h1 := (C27_leaves_behind hok s n h hn hc (.inr (.inr hd))).2
  have h2 := (reachable_of_miscounted s n h).inv.runs c
  have h3 : s.threads.countP (PC.runs c) ≤ s.threads.countP handles :=
    List.countP_mono_left fun x _ hx => by cases x <;> simp_all [PC.runs, handles]
  simp only [handlersRunning]
  omega

/-- C27, non-vacuity: a signal arrives during a shutdown. The count is off by one afterwards. -/
example : ∃ s, play anyStep {} ([.connect 1 1, .shutdown] ++ steps 0 2 ++ [recv 0 (exSig 1)] ++ steps 0 10) = some s ∧
    s.threads = [.reading 1] ∧ s.g.currentOps = 4294967295 ∧ s.g.crashed = none := ⟨_, rfl, rfl, rfl, rfl⟩

/-- C27, non-vacuity: `Shutdown` called again after that waits although nothing is being handled. -/
example : ∃ s, play anyStep {} ([.connect 1 1, .shutdown] ++ steps 0 2 ++ [recv 0 (exSig 1)] ++ steps 0 10 ++
    [.shutdown, .go 0]) = some s ∧ s.threads = [.waiting, .reading 1] := ⟨_, rfl, rfl⟩

/-- C27, non-vacuity: a signal arrives while a request is handled and `Shutdown` waits for it. The first of the two to be
done lets `Shutdown` go on. -/
example : ∃ s, play anyStep {} ([.connect 1 2, recv 0 (exReq 1)] ++ steps 0 5 ++ [.shutdown, .go 0] ++
    [recv 2 (exSig 2)] ++ steps 2 8) = some s ∧
    s.threads = [.waiting, .starting 1 (exReq 1) false, .untasking 1 false, .reading 1] ∧ s.g.rdyClosed = true :=
  ⟨_, rfl, rfl, rfl⟩

private def fewWriters (s : State) (l : Label) : Bool :=
  decide (s.threads.length < 100) && match l with
    | .thread _ ch => ch.writerOk
    | _ => true

private theorem fewWriters_ok (s : State) (l : Label) (h : fewWriters s l = true) : FewGoroutines s l ∧ WritersOk s l := by
  simp only [fewWriters, Bool.and_eq_true, decide_eq_true_eq] at h
  refine ⟨by simp only [FewGoroutines]; omega, ?_⟩
  rintro pc ch rfl
  exact h.2

private theorem play_miscounted {okb : State → Label → Bool} (hok : ∀ s l, okb s l = true → ok s l)
    (cmds : List Cmd) (s s' : State) (n : Nat) (hr : Miscounted ok s n) (h : play okb s cmds = some s') :
    ∃ n', n' ≤ n + cmds.length ∧ Miscounted ok s' n' := by
  induction cmds generalizing s n with
  | nil => cases h; exact ⟨n, by simp, hr⟩
  | cons cmd cmds ih =>
    unfold play at h
    split at h
    · rename_i l s1 hl he
      split at h
      · rename_i hk
        by_cases hlate : LateSignal s l
        · obtain ⟨n', hn, hm⟩ := ih s1 (n + 1) (.late _ _ _ _ hr (hok _ _ hk) hlate (exec_step hl he)) h
          exact ⟨n', by simp only [List.length_cons]; omega, hm⟩
        · obtain ⟨n', hn, hm⟩ := ih s1 n (.other _ _ _ _ hr (hok _ _ hk) hlate (exec_step hl he)) h
          exact ⟨n', by simp only [List.length_cons]; omega, hm⟩
      · cases h
    · cases h

/-- C29, non-vacuity: an execution with a late signal that `C29_no_crash_signals_partial` applies to. -/
example : ∃ s n, Miscounted (fun s l => FewGoroutines s l ∧ WritersOk s l) s n ∧ n < 2 ^ 32 ∧
    s.threads = [.reading 1] ∧ s.g.currentOps = 4294967295 := by
  obtain ⟨n, hn, hm⟩ := play_miscounted fewWriters_ok
    ([.connect 1 1, .shutdown] ++ steps 0 2 ++ [recv 0 (exSig 1)] ++ steps 0 10) {} _ 0 .start rfl
  exact ⟨_, n, hm, by simp [steps] at hn; omega, rfl, rfl⟩

/-- C27, non-vacuity: an execution that `C27_waits_for_ever` applies to. -/
example : ∃ s n, Miscounted (fun s l => FewGoroutines s l ∧ WritersOk s l) s n ∧ s.g.shutdown = true ∧
    s.g.rdyClosed = false ∧ .waiting ∈ s.threads ∧ s.threads.countP handles < n ∧ n < 2 ^ 32 := by
  obtain ⟨n, hn, hm⟩ := play_miscounted fewWriters_ok ([.connect 1 1, .shutdown] ++ steps 0 2 ++
    [recv 0 (exSig 1)] ++ steps 0 10 ++ [.shutdown, .go 0]) {} _ 0 .start rfl
  refine ⟨_, n, hm, rfl, rfl, List.mem_cons_self, ?_, by simp [steps] at hn; omega⟩
  have h1 : (4294967295 : Int) = ((0 : Nat) - n) % 2 ^ 32 := C27_miscount _ _ hm rfl
  show 0 < n
  omega

/-- C27, non-vacuity: the bound of `C27_leaves_behind` is met. `Shutdown` returns while a request is handled that was
there before; one signal was late. -/
example : ∃ s, play fewWriters {} ([.connect 1 2, recv 0 (exReq 1)] ++ steps 0 6 ++ [.shutdown, .go 0] ++
    [recv 2 (exSig 2)] ++ steps 2 8 ++ [.go 0, .go 0]) = some s ∧ s.g.crashed = none ∧
    .transportDown ∈ s.g.log ∧ s.threads.countP handles = 1 ∧ handlersRunning s.g.log 1 = 1 :=
  ⟨_, rfl, rfl, by decide, rfl, rfl⟩

end Webwire.Life
