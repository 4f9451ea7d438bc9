import Verif.Props.Lifecycle10
import Verif.Props.Lifecycle6
import Verif.Props.Lifecycle7

/-!
# C92, C106: waiting for a slot, and messages of an active connection, shut down or not

What C92 and C106 say about executions without a shutdown, with the requests refused during a shutdown counted.
-/

set_option autoImplicit false

namespace Webwire.Life

open Spec

/-- C92, during a shutdown too: a message waits only because of the limit: while goroutines call handlers of the same connection or
clean up after one that returned, and requests were refused, together as many as the limit allows. -/
theorem C92_waits_shutdown {s : State} (h : Reachable s) {pc : PC} {c : ConnId} {ch : Choice} (hm : pc ∈ s.threads)
    (ho : pc.isOn c = true) (hw : act s.g ch pc = none) :
    1 < (s.g.conns c).limit ∧
      (s.g.conns c).limit = (s.threads.countP fun a => handling c a || a.returned c) + s.g.log.countP (LEv.isRefused c) := by
  cases pc <;> simp only [act, reduceCtorEq] at hw <;> try simp [PC.isOn] at ho
  case acquiring c' m =>
    subst ho
    unfold actAcquiring at hw
    split at hw
    case isFalse => cases hw
    case isTrue hl =>
      split at hw
      case isFalse => cases hw
      case isTrue hsl =>
        have hi := h.inv
        have h1 := hi.slots c' hl
        have h2 := hi.slotsLe c' hl
        have h4 : s.threads.countP (PC.holdsSlot c') = s.threads.countP fun a => handling c' a || a.returned c' := by
          refine List.countP_congr fun a ha => ?_
          have hone : a.isReader c' = true → a = .acquiring c' m := by
            intro hr
            apply Classical.byContradiction
            intro hne
            have h2 := hi.reader c'
            obtain ⟨pre, post, hts⟩ := List.append_of_mem hm
            rw [hts] at h2 ha
            simp only [List.countP_append, List.countP_cons, PC.isReader, decide_true, if_true] at h2
            simp only [List.mem_append, List.mem_cons, hne, false_or] at ha
            rcases ha with ha | ha
            · have := List.countP_pos_iff.mpr ⟨a, ha, hr⟩; omega
            · have := List.countP_pos_iff.mpr ⟨a, ha, hr⟩; omega
          cases a <;> simp_all [PC.holdsSlot, handling, PC.isReader, PC.returned]
        refine ⟨hl, ?_⟩
        rw [← h4]
        omega

/-- The third request on a connection with limit 2, when one is being handled and one was refused. -/
example : ∃ s, play anyStep {} ([.connect 1 2, recv 0 (exReq 1)] ++ steps 0 5 ++ [.go 0, .shutdown, .go 0, recv 2 (exReq 2)] ++ steps 2 4 ++
    [recv 2 (exReq 3), .go 2]) = some s ∧ .acquiring 1 (exReq 3) ∈ s.threads ∧
    act s.g {} (.acquiring 1 (exReq 3)) = none ∧ s.g.log.countP (LEv.isRefused 1) = 1 ∧
    s.threads.countP (fun a => handling 1 a || a.returned 1) = 1 := ⟨_, rfl, by decide, rfl, by decide, by decide⟩

/-- C106: while it returns true, shut down or not, every message that was received has been given to its handler, is on its way to it,
or was refused, which happens only to requests that arrive while the server is shut down: none was dropped. -/
theorem C106_ready (s : State) (h : Reachable s) (c : ConnId) (ha : (s.g.conns c).active = true) (m : LMsg)
    (hm : m.kind = .signal ∨ m.kind = .request ∨ m.kind = .session) :
    s.g.log.count (.arrived c m) = s.g.log.count (.start c m) + s.threads.countP (PC.pends c m) + s.g.log.count (.refused c m) ∧
    (m.kind = .signal ∨ .stop ∉ s.g.log → s.g.log.count (.refused c m) = 0) := by
  have h1 := ReachableIf.accounted h c m hm
  have h2 : s.g.log.count (.dropped c m) = 0 := List.count_eq_zero.mpr (fun hd => by
    rw [(ReachableIf.dropped h c m hd).1] at ha
    cases ha)
  refine ⟨by omega, fun hk => List.count_eq_zero.mpr (fun hd => ?_)⟩
  rcases hk with hk | hk
  · have := (C28_only_requests_refused s h c m hd).1
    simp [LMsg.requiresReply, hk] at this
  · exact hk ((ReachableIf.refInv h).log c m hd).2

/-- A signal that is handled and a request that is refused, on an active connection during a shutdown. -/
example : ∃ s, play anyStep {} ([.connect 1 2, .shutdown, .go 0, recv 1 ⟨.signal, 1⟩] ++ steps 1 5 ++ [.go 1, recv 2 (exReq 2)] ++ steps 2 4) = some s ∧
    (s.g.conns 1).active = true ∧ s.g.log = [.stop, .arrived 1 ⟨.signal, 1⟩, .start 1 ⟨.signal, 1⟩, .arrived 1 (exReq 2), .refused 1 (exReq 2)] :=
  ⟨_, rfl, rfl, rfl⟩

/-- A connection without goroutines has ended. -/
theorem ended_of_none {s : State} (h : Reachable s) {c : ConnId} (hu : (s.g.conns c).used = true)
    (hon : ∀ pc ∈ s.threads, pc.isOn c = false) : Ended s c := by
  have hz : ∀ p : PC → Bool, (∀ pc, p pc = true → pc.isOn c = true) → s.threads.countP p = 0 := by
    intro p hp
    rw [List.countP_eq_zero]
    intro pc hm hx
    have := hp pc hx
    rw [hon pc hm] at this
    cases this
  have hd : .disconnected c ∈ s.g.log := by
    have := h.endInv.ends c
    rw [hz _ (fun _ => PC.isReader_isOn), if_pos hu] at this
    exact List.count_pos_iff.mp (by omega)
  have ht : (s.g.conns c).tasks = 0 := by rw [h.inv.tasks c, hz _ (fun _ => PC.holdsTask_isOn)]; rfl
  refine ⟨hd, ?_, hon⟩
  rcases h.sockets c (h.goneInv.log c hd) hu with h1 | h1 | ⟨a, h1, h2⟩
  · exact h1
  · omega
  · have := hon a h1
    cases a <;> simp_all [PC.unlinks, PC.isOn]

/-- C99, whatever was refused: when nothing can happen any more on a connection whose client is gone, it has ended, or exactly as many of
its requests were refused as it has handler slots, and its reader is the one goroutine left and waits with another message. Missing:
that this does not happen, which is false. -/
theorem C99_or_full_partial (s : State) (h : Reachable s) (c : ConnId) (hu : (s.g.conns c).used = true) (hc : s.g.crashed = none)
    (hr : Rests s c) :
    Ended s c ∨
    (1 < (s.g.conns c).limit ∧ (s.g.log.countP (LEv.isRefused c) : Int) = (s.g.conns c).limit ∧
      s.threads.countP (PC.isOn c) = 1 ∧ ∃ m, .acquiring c m ∈ s.threads) := by
  by_cases hon : ∀ pc ∈ s.threads, pc.isOn c = false
  · exact .inl (ended_of_none h hu hon)
  · right
    simp only [not_forall, Bool.not_eq_false] at hon
    obtain ⟨pc, hp, ho⟩ := hon
    obtain ⟨m, rfl, hl, hs⟩ := Rests.waits hr hc hp ho
    have h1 := h.inv.slots c hl
    have h2 := h.inv.slotsLe c hl
    have h3 : s.threads.countP (PC.holdsSlot c) = 0 := by
      rw [List.countP_eq_zero]
      intro a ha hx
      obtain ⟨m, rfl, -⟩ := Rests.waits hr hc ha (PC.holdsSlot_isOn hx)
      simp [PC.holdsSlot] at hx
    have h4 : s.threads.countP (PC.isOn c) = s.threads.countP (PC.isReader c) := by
      refine List.countP_congr fun a ha => ⟨fun hx => ?_, PC.isReader_isOn⟩
      obtain ⟨m, rfl, -⟩ := Rests.waits hr hc ha hx
      simp [PC.isReader]
    have h5 := h.inv.reader c
    have h6 : 0 < s.threads.countP (PC.isReader c) := List.countP_pos_iff.mpr ⟨_, hp, by simp [PC.isReader]⟩
    exact ⟨hl, by omega, by omega, m, hp⟩

/-- Both happen: the connections of the examples for `C99_partial` and `C99_violated`. The latter: -/
example : ∃ s, Reachable s ∧ (s.g.conns 1).used = true ∧ s.g.crashed = none ∧ Rests s 1 ∧ (s.g.conns 1).limit = 2 ∧
    s.g.log.countP (LEv.isRefused 1) = 2 := by
  obtain ⟨s, hp, hu, hc, ht, hl, hs, hn⟩ : ∃ s, play anyStep {} (exExhausted ++ [recv 0 (exReq 3), .go 0]) = some s ∧
      (s.g.conns 1).used = true ∧ s.g.crashed = none ∧ s.threads = [.acquiring 1 (exReq 3)] ∧ (s.g.conns 1).limit = 2 ∧
      (s.g.conns 1).slots = 2 ∧ s.g.log.countP (LEv.isRefused 1) = 2 := ⟨_, rfl, rfl, rfl, rfl, rfl, rfl, rfl⟩
  refine ⟨s, play_any hp, hu, hc, fun l s' hd hst => ?_, hl, hn⟩
  cases hst with
  | thread g g' pre post pcs pc ch hc hact =>
    have hm : pc ∈ pre ++ pc :: post := by simp
    simp only at ht hl hs
    rw [ht, List.mem_singleton] at hm
    subst hm
    simp [act, actAcquiring, hl, hs] at hact
  | _ => exact hd

end Webwire.Life
