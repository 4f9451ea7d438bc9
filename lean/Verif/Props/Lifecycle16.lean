import Mathlib.Data.List.Perm.Basic
import Verif.Props.Lifecycle14
import Verif.Props.Lifecycle7
import Verif.Props.Accounts

/-!
# C28, C92, C99: connections on which few requests arrive

Fewer requests than the connection has handler slots cannot take all of them for ever.
-/

set_option autoImplicit false

namespace Webwire.Life

open _root_.Webwire.Life.Spec

/-- The messages that arrived on the connection and require a reply. -/
def Spec.requestsArrived (s : State) (c : ConnId) : Nat :=
  s.g.log.countP fun | .arrived c' m => decide (c' = c) && m.requiresReply | _ => false

/-- The messages refused on the connection. -/
def refusals (c : ConnId) : LEv → Option LMsg
  | .refused c' m => if c' = c then some m else none
  | _ => none

/-- The messages that arrived on the connection and require a reply. -/
def arrivals (c : ConnId) : LEv → Option LMsg
  | .arrived c' m => if c' = c ∧ m.requiresReply = true then some m else none
  | _ => none

theorem count_refusals (c : ConnId) (m : LMsg) (log : List LEv) : (log.filterMap (refusals c)).count m = log.count (.refused c m) := by
  induction log with
  | nil => rfl
  | cons e l ih =>
    rw [List.filterMap_cons, List.count_cons]
    cases e <;> simp only [refusals] <;> try simpa using ih
    rename_i c' m'
    by_cases hc : c' = c
    · simp [hc, ih, List.count_cons]
    · simp [hc, ih]

theorem count_arrivals (c : ConnId) (m : LMsg) (hm : m.requiresReply = true) (log : List LEv) :
    (log.filterMap (arrivals c)).count m = log.count (.arrived c m) := by
  induction log with
  | nil => rfl
  | cons e l ih =>
    rw [List.filterMap_cons, List.count_cons]
    cases e <;> simp only [arrivals] <;> try simpa using ih
    rename_i c' m'
    by_cases hc : c' = c
    · by_cases hr : m'.requiresReply = true
      · simp [hc, hr, ih, List.count_cons]
      · have : m' ≠ m := fun e => hr (e ▸ hm)
        simp [hc, hr, ih, this]
    · simp [hc, ih]

theorem length_refusals (c : ConnId) (log : List LEv) : (log.filterMap (refusals c)).length = log.countP (LEv.isRefused c) := by
  induction log with
  | nil => rfl
  | cons e l ih =>
    rw [List.filterMap_cons, List.countP_cons]
    cases e <;> simp only [refusals, LEv.isRefused] <;> try simpa using ih
    rename_i c' m'
    by_cases hc : c' = c <;> simp [hc, ih]

theorem length_arrivals (s : State) (c : ConnId) : (s.g.log.filterMap (arrivals c)).length = Spec.requestsArrived s c := by
  unfold Spec.requestsArrived
  induction s.g.log with
  | nil => rfl
  | cons e l ih =>
    rw [List.filterMap_cons, List.countP_cons]
    cases e <;> simp only [arrivals] <;> try simpa using ih
    rename_i c' m'
    by_cases hc : c' = c
    · by_cases hr : m'.requiresReply = true <;> simp [hc, hr, ih]
    · simp [hc, ih]

/-- C28: no more requests are refused than arrived. -/
theorem C28_refused_le (s : State) (h : Reachable s) (c : ConnId) : s.g.log.countP (LEv.isRefused c) ≤ Spec.requestsArrived s c := by
  rw [← length_refusals, ← length_arrivals]
  refine (List.subperm_ext_iff.mpr fun m hm => ?_).length_le
  rw [count_refusals]
  have hlog : .refused c m ∈ s.g.log := by
    rw [← List.count_pos_iff, count_refusals, List.count_pos_iff] at hm
    exact hm
  have hr := (C28_only_requests_refused s h c m hlog).1
  rw [count_arrivals c m hr]
  have := (C22_interleaved s h c m hr).1
  omega

/-- C99, what holds, if fewer requests arrived than the connection has handler slots: when nothing can happen any more on a connection
whose client is gone, it has ended, shutdown or not. Missing: more requests, for which it is false, and crashed servers. -/
theorem C99_few_requests_partial (s : State) (h : Reachable s) (c : ConnId) (hu : (s.g.conns c).used = true) (hc : s.g.crashed = none)
    (hr : Rests s c) (hfew : 1 < (s.g.conns c).limit → (Spec.requestsArrived s c : Int) < (s.g.conns c).limit) :
    Ended s c ∧ (s.g.conns c).active = false ∧ (s.g.conns c).tasks = 0 ∧ handlersRunning s.g.log c = 0 :=
  C99_partial s h c hu hc hr fun hl => by have := hfew hl; have := C28_refused_le s h c; omega

/-- A request that is refused on a connection with two slots, whose client goes away then. -/
example : ∃ s, Reachable s ∧ (s.g.conns 1).used = true ∧ s.g.crashed = none ∧ Rests s 1 ∧ (s.g.conns 1).limit = 2 ∧
    Spec.requestsArrived s 1 = 1 ∧ s.g.log.countP (LEv.isRefused 1) = 1 := by
  obtain ⟨s, hp, hu, hc, ht, hl, hs, hn⟩ : ∃ s, play anyStep {} ([.connect 1 2, .shutdown, .go 0, .go 0, recv 0 (exReq 1)] ++ steps 0 4 ++
        [.go 0 { msg := none }] ++ steps 0 3) = some s ∧
      (s.g.conns 1).used = true ∧ s.g.crashed = none ∧ s.threads = [] ∧ (s.g.conns 1).limit = 2 ∧
      Spec.requestsArrived s 1 = 1 ∧ s.g.log.countP (LEv.isRefused 1) = 1 := ⟨_, rfl, rfl, rfl, rfl, rfl, rfl, rfl⟩
  refine ⟨s, play_any hp, hu, hc, fun l s' hd hst => ?_, hl, hs, hn⟩
  cases hst with
  | thread g g' pre post pcs pc ch hc hact => simp at ht
  | _ => exact hd

/-- C92, if fewer requests arrived than the connection has handler slots: a message waits only while a handler of the same connection is
called or cleaned up after. -/
theorem C92_few_requests {s : State} (h : Reachable s) {pc : PC} {c : ConnId} {ch : Choice} (hm : pc ∈ s.threads)
    (ho : pc.isOn c = true) (hw : act s.g ch pc = none) (hfew : (Spec.requestsArrived s c : Int) < (s.g.conns c).limit) :
    ∃ a ∈ s.threads, (handling c a || a.returned c) = true := by
  obtain ⟨-, heq⟩ := C92_waits_shutdown h hm ho hw
  have := C28_refused_le s h c
  exact List.countP_pos_iff.mp (by omega)

/-- Two signals are being handled on a connection with limit 2, the third one waits. -/
example : ∃ s, play anyStep {} ([.connect 1 2, recv 0 (exSig 1)] ++ steps 0 5 ++ [.go 0, recv 1 (exSig 2)] ++ steps 1 5 ++
    [recv 2 (exSig 3), .go 2]) = some s ∧ .acquiring 1 (exSig 3) ∈ s.threads ∧ act s.g {} (.acquiring 1 (exSig 3)) = none ∧
    Spec.requestsArrived s 1 = 0 ∧ (s.g.conns 1).limit = 2 := ⟨_, rfl, by decide, rfl, rfl, rfl⟩

end Webwire.Life
