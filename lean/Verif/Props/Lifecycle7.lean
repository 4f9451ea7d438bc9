import Verif.Props.Lifecycle5
import Verif.Props.Lifecycle6
import Verif.Proofs.Whole7

/-!
# C99: a connection that is lost comes to its end
-/

set_option autoImplicit false

namespace Webwire.Life

namespace Spec

/-- A step on the connection. -/
def On (c : ConnId) : Label → Prop
  | .thread pc _ => pc.isOn c = true
  | .connect c' _ | .close c' => c' = c
  | .shutdown => False

/-- A step of a goroutine of the connection when its socket is lost: reading fails. -/
def Dying (c : ConnId) : Label → Prop
  | .thread pc ch => pc.isOn c = true ∧ (pc = .reading c → ch.msg = none)
  | _ => False

/-- An execution after the socket of the connection was lost, with `n` steps on the connection and any number of steps
elsewhere. -/
inductive Lost (c : ConnId) (s : State) : Nat → State → Prop
  | start : Lost c s 0 s
  | own (n : Nat) (s' : State) (l : Label) (s'' : State) : Lost c s n s' → Dying c l → Step s' l s'' → Lost c s (n + 1) s''
  | elsewhere (n : Nat) (s' : State) (l : Label) (s'' : State) : Lost c s n s' → ¬ On c l → Step s' l s'' → Lost c s n s''

/-- No goroutine of the connection can make a step, its socket being lost. -/
def Rests (s : State) (c : ConnId) : Prop := ∀ l s', Dying c l → ¬ Step s l s'

end Spec

open _root_.Webwire.Life.Spec

/-- What C99 asks for: when the socket of a connection is lost and nothing more can happen, the connection has ended
(the server not having crashed). -/
def C99_full : Prop := ∀ s, Reachable s → ∀ c, (s.g.conns c).used = true → s.g.crashed = none → Rests s c → Ended s c

theorem Lost.reachable {c : ConnId} {s s' : State} {n : Nat} (hr : Reachable s) (h : Lost c s n s') : Reachable s' := by
  induction h with
  | start => exact hr
  | own n s' l s'' _ _ hs ih => exact .step _ _ _ ih trivial hs
  | elsewhere n s' l s'' _ _ hs ih => exact .step _ _ _ ih trivial hs

theorem Lost.left {c : ConnId} {s s' : State} {n : Nat} (h : Lost c s n s') : n + s'.left c ≤ s.left c := by
  induction h with
  | start => omega
  | own n s' l s'' _ hd hs ih =>
    cases l with
    | thread pc ch =>
      have := hs.left_plain hd.1 (fun c' e => hd.2 (by
        subst e
        have : c' = c := by simpa [PC.isOn] using hd.1
        rw [this]))
      omega
    | _ => exact hd.elim
  | elsewhere n s' l s'' _ hn hs ih =>
    have : s''.left c ≤ s'.left c := by
      refine hs.left_else (c := c) ?_
      cases l with
      | thread pc ch => simpa [On] using hn
      | connect c' limit => exact hn
      | close c' => exact hn
      | shutdown => trivial
    omega

/-- C99: after the socket was lost there is a bound on the steps on the connection, whatever happens elsewhere. -/
theorem C99_ends (c : ConnId) (s : State) : ∃ N, ∀ n s', Lost c s n s' → n ≤ N :=
  ⟨s.left c, fun n s' h => by have := Lost.left h; omega⟩

/-- C99: so the connection comes to rest. -/
theorem C99_rests (c : ConnId) (s : State) : ∃ n s', Lost c s n s' ∧ Rests s' c := by
  have key : ∀ k n s', Lost c s n s' → s.left c ≤ n + k → ∃ n s', Lost c s n s' ∧ Rests s' c := by
    intro k
    induction k with
    | zero =>
      intro n s' hr hk
      refine ⟨n, s', hr, fun l s'' hd hst => ?_⟩
      have := Lost.left (.own n s' l s'' hr hd hst)
      omega
    | succ k ih =>
      intro n s' hr hk
      by_cases h : Rests s' c
      · exact ⟨n, s', hr, h⟩
      · unfold Rests at h
        push Not at h
        obtain ⟨l, s'', hd, hst⟩ := h
        exact ih (n + 1) s'' (.own n s' l s'' hr hd hst) (by omega)
  exact key (s.left c) 0 s .start (by omega)

/-- The socket of a closed connection is closed, or will be when a handler is done. -/
theorem Acts.sockets {g g' : G} {ch : Choice} {pc : PC} {pcs : List PC} (h : Acts g ch pc g' pcs) (c : ConnId)
    (hi : (g.conns c).active = false → (g.conns c).used = true →
      0 < (g.conns c).sockCloses ∨ 0 < (g.conns c).tasks ∨ pc.unlinks c = true)
    (ha : (g'.conns c).active = false) (hu : (g'.conns c).used = true) :
    0 < (g'.conns c).sockCloses ∨ 0 < (g'.conns c).tasks ∨ pcs.any (PC.unlinks c) = true := by
  cases h <;> simp only [List.any_cons, List.any_nil, PC.unlinks, Bool.or_false, decide_eq_true_eq] at * <;>
    grind [G.ev, G.upd, unlinked, G.crash, resume, closed, PC.unlinks]

theorem ReachableIf.sockets {ok : State → Label → Prop} {s : State} (h : ReachableIf ok s) (c : ConnId)
    (ha : (s.g.conns c).active = false) (hu : (s.g.conns c).used = true) :
    0 < (s.g.conns c).sockCloses ∨ 0 < (s.g.conns c).tasks ∨ ∃ a ∈ s.threads, a.unlinks c = true := by
  induction h with
  | start => simp at hu
  | step s l s' hr ho hs ih =>
    cases hs with
    | thread g g' pre post pcs pc ch hc hact =>
      by_cases hx : ∃ a ∈ pre ++ post, a.unlinks c = true
      · obtain ⟨a, hm, hl⟩ := hx
        refine .inr (.inr ⟨a, ?_, hl⟩)
        simp only [List.mem_append] at hm ⊢
        tauto
      · push Not at hx
        rcases (acts_of_act hact).sockets c (fun h1 h2 => by
          rcases ih h1 h2 with h | h | ⟨a, hm, hl⟩
          · exact .inl h
          · exact .inr (.inl h)
          · simp only [List.mem_append, List.mem_cons] at hm
            rcases hm with hm | rfl | hm
            · exact absurd hl (hx a (by simp [hm]))
            · exact .inr (.inr hl)
            · exact absurd hl (hx a (by simp [hm]))) ha hu with h | h | h
        · exact .inl h
        · exact .inr (.inl h)
        · obtain ⟨a, hm, hl⟩ := List.any_eq_true.mp h
          exact .inr (.inr ⟨a, by simp [hm], hl⟩)
    | connect g ts c' limit hc hu' =>
      simp only [connected] at ha hu ⊢
      split_ifs at ha hu ⊢ with e
      have := ih ha hu
      simpa [PC.unlinks] using this
    | close g ts c' hc hu => simpa [PC.unlinks] using ih ha hu
    | shutdown g ts hc => simpa [PC.unlinks] using ih ha hu

/-- A goroutine of the connection that cannot go on waits for a slot. -/
theorem Rests.waits {c : ConnId} {s : State} (hr : Rests s c) (hc : s.g.crashed = none) {pc : PC} (hp : pc ∈ s.threads)
    (ho : pc.isOn c = true) : ∃ m, pc = .acquiring c m ∧ (s.g.conns c).limit > 1 ∧ ((s.g.conns c).slots : Int) ≥ (s.g.conns c).limit := by
  have hno : act s.g {} pc = none := by
    by_contra hx
    obtain ⟨pre, post, hts⟩ := List.append_of_mem hp
    obtain ⟨⟨g', pcs⟩, h⟩ := Option.ne_none_iff_exists'.mp hx
    obtain ⟨g, ts⟩ := s
    simp only at hts
    subst hts
    exact hr (.thread pc {}) _ ⟨ho, fun _ => rfl⟩ (.thread g g' pre post pcs pc {} hc h)
  cases pc <;> simp only [act, reduceCtorEq] at hno
  case acquiring i m =>
    obtain rfl : i = c := by simpa [PC.isOn] using ho
    refine ⟨m, rfl, ?_⟩
    unfold actAcquiring at hno
    split at hno
    · split at hno
      · exact ⟨by assumption, by assumption⟩
      · cases hno
    · cases hno
  case waiting => cases ho

/-- C99, what holds: the connection has ended unless as many of its requests were refused during a shutdown as it has
handler slots; the socket is closed, nothing is registered as going on any more, and of its handler slots only those of refused requests
are taken. Missing: connections with that many refused requests, for which it is false. -/
theorem C99_partial (s : State) (h : Reachable s) (c : ConnId) (hu : (s.g.conns c).used = true) (hc : s.g.crashed = none)
    (hr : Rests s c) (href : 1 < (s.g.conns c).limit → (s.g.log.countP (LEv.isRefused c) : Int) < (s.g.conns c).limit) :
    Ended s c ∧ (s.g.conns c).active = false ∧ (s.g.conns c).tasks = 0 ∧ handlersRunning s.g.log c = 0 := by
  have hi := h.inv
  have hon : ∀ pc ∈ s.threads, pc.isOn c = false := by
    intro pc hp
    by_contra ho
    obtain ⟨m, rfl, hl, hs⟩ := Rests.waits hr hc hp (by simpa using ho)
    have h1 := hi.slots c hl
    have h2 := href hl
    have hpos : 0 < s.threads.countP (PC.holdsSlot c) := by omega
    obtain ⟨a, ha, hh⟩ := List.countP_pos_iff.mp hpos
    obtain ⟨m, rfl, -⟩ := Rests.waits hr hc ha (PC.holdsSlot_isOn hh)
    simp [PC.holdsSlot] at hh
  have hz : ∀ p : PC → Bool, (∀ pc, p pc = true → pc.isOn c = true) → s.threads.countP p = 0 := by
    intro p hp
    rw [List.countP_eq_zero]
    intro pc hm hx
    have := hp pc hx
    rw [hon pc hm] at this
    cases this
  have hd : .disconnected c ∈ s.g.log := by
    have := h.endInv.ends c
    rw [hz _ (fun _ => PC.isReader_isOn), if_pos hu] at this
    exact List.count_pos_iff.mp (by omega)
  have ha := h.goneInv.log c hd
  have ht : (s.g.conns c).tasks = 0 := by rw [hi.tasks c, hz _ (fun _ => PC.holdsTask_isOn)]; rfl
  refine ⟨⟨hd, ?_, hon⟩, ha, ht, ?_⟩
  · rcases h.sockets c ha hu with h1 | h1 | ⟨a, h1, h2⟩
    · exact h1
    · omega
    · have := hon a h1
      cases a <;> simp_all [PC.unlinks, PC.isOn]
  · have := hi.runs c
    unfold handlersRunning
    rw [hz (PC.runs c) (fun pc hp => by cases pc <;> simp_all [PC.runs, PC.isOn])] at this
    omega

/-- **C99 is violated** after a shutdown: two requests were refused on a connection with two handler slots, which keep the slots.
The reader waits for ever with the third one; it does not notice that the socket is lost, and `OnClientDisconnected` is never
called. -/
theorem C99_violated : ¬ C99_full := by
  intro hf
  obtain ⟨s, hp, hu, hc, ht, hl, hs⟩ : ∃ s, play anyStep {} (exExhausted ++ [recv 0 (exReq 3), .go 0]) = some s ∧
      (s.g.conns 1).used = true ∧ s.g.crashed = none ∧ s.threads = [.acquiring 1 (exReq 3)] ∧ (s.g.conns 1).limit = 2 ∧
      (s.g.conns 1).slots = 2 := ⟨_, rfl, rfl, rfl, rfl, rfl, rfl⟩
  have hr : Rests s 1 := by
    intro l s' hd hst
    cases hst with
    | thread g g' pre post pcs pc ch hc hact =>
      have hm : pc ∈ pre ++ pc :: post := by simp
      simp only at ht hl hs
      rw [ht, List.mem_singleton] at hm
      subst hm
      simp [act, actAcquiring, hl, hs] at hact
    | _ => exact hd
  have := (hf s (play_any hp) 1 hu hc hr).2.2 (.acquiring 1 (exReq 3)) (by simp [ht])
  simp [PC.isOn] at this

/-- A client with two handler slots vanishes while its request is handled; then the handler ends. -/
example : ∃ s, Reachable s ∧ (s.g.conns 1).used = true ∧ s.g.crashed = none ∧ Rests s 1 ∧ (s.g.conns 1).limit = 2 ∧
    s.g.log.countP (LEv.isRefused 1) = 0 ∧
    s.g.log = [.arrived 1 (exReq 1), .start 1 (exReq 1), .disconnected 1, .finish 1 (exReq 1)] := by
  obtain ⟨s, hp, hu, hc, ht, h⟩ : ∃ s, play anyStep {} ([.connect 1 2, recv 0 (exReq 1)] ++ steps 0 6 ++ steps 1 3 ++
      steps 0 5) = some s ∧
      (s.g.conns 1).used = true ∧ s.g.crashed = none ∧ s.threads = [] ∧ (s.g.conns 1).limit = 2 ∧
      s.g.log.countP (LEv.isRefused 1) = 0 ∧
      s.g.log = [.arrived 1 (exReq 1), .start 1 (exReq 1), .disconnected 1, .finish 1 (exReq 1)] :=
    ⟨_, rfl, rfl, rfl, rfl, rfl, rfl, rfl⟩
  refine ⟨s, play_any hp, hu, hc, fun l s' hd hst => ?_, h⟩
  cases hst with
  | thread g g' pre post pcs pc ch hc hact => simp at ht
  | _ => exact hd

end Webwire.Life
