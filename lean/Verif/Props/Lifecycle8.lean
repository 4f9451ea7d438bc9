import Verif.Props.Lifecycle7
import Verif.Props.Accounts

/-!
# C103: every signal that arrived is handled in the end
-/

set_option autoImplicit false

namespace Webwire.Life

namespace Spec

/-- A step of a goroutine of the connection other than the receipt of the next message (or the loss of the socket). -/
def Working (c : ConnId) : Label → Prop
  | .thread pc _ => pc.isOn c = true ∧ pc ≠ .reading c
  | _ => False

/-- An execution with `n` steps on the connection, on which nothing is received and which is not closed, and any number of
steps elsewhere. -/
inductive Works (c : ConnId) (s : State) : Nat → State → Prop
  | start : Works c s 0 s
  | own (n : Nat) (s' : State) (l : Label) (s'' : State) : Works c s n s' → Working c l → Step s' l s'' → Works c s (n + 1) s''
  | elsewhere (n : Nat) (s' : State) (l : Label) (s'' : State) : Works c s n s' → ¬ On c l → Step s' l s'' → Works c s n s''

/-- No goroutine of the connection can make a step, apart from receiving a message. -/
def Settled (s : State) (c : ConnId) : Prop := ∀ l s', Working c l → ¬ Step s l s'

end Spec

open _root_.Webwire.Life.Spec

theorem Works.left {c : ConnId} {s s' : State} {n : Nat} (h : Works c s n s') : n + s'.left c ≤ s.left c := by
  induction h with
  | start => omega
  | own n s' l s'' _ hd hs ih =>
    cases l with
    | thread pc ch =>
      have := hs.left_plain hd.1 (fun c' e => absurd (by
        subst e
        have : c' = c := by simpa [PC.isOn] using hd.1
        rw [this]) hd.2)
      omega
    | _ => exact hd.elim
  | elsewhere n s' l s'' _ hn hs ih =>
    have : s''.left c ≤ s'.left c := by
      refine hs.left_else (c := c) ?_
      cases l with
      | thread pc ch => simpa [On] using hn
      | connect c' limit => exact hn
      | close c' => exact hn
      | shutdown => trivial
    omega

theorem Works.reachable {c : ConnId} {s s' : State} {n : Nat} (hr : Reachable s) (h : Works c s n s') : Reachable s' := by
  induction h with
  | start => exact hr
  | own n s' l s'' _ _ hs ih => exact .step _ _ _ ih trivial hs
  | elsewhere n s' l s'' _ _ hs ih => exact .step _ _ _ ih trivial hs

/-- C103: what arrived keeps the goroutines of the connection busy for a bounded number of steps, whatever happens
elsewhere. -/
theorem C103_ends (c : ConnId) (s : State) : ∃ N, ∀ n s', Works c s n s' → n ≤ N :=
  ⟨s.left c, fun n s' h => by have := Works.left h; omega⟩

/-- C103: so the connection settles. -/
theorem C103_settles (c : ConnId) (s : State) : ∃ n s', Works c s n s' ∧ Settled s' c := by
  have key : ∀ k n s', Works c s n s' → s.left c ≤ n + k → ∃ n s', Works c s n s' ∧ Settled s' c := by
    intro k
    induction k with
    | zero =>
      intro n s' hr hk
      refine ⟨n, s', hr, fun l s'' hd hst => ?_⟩
      have := Works.left (.own n s' l s'' hr hd hst)
      omega
    | succ k ih =>
      intro n s' hr hk
      by_cases h : Settled s' c
      · exact ⟨n, s', hr, h⟩
      · unfold Settled at h
        push Not at h
        obtain ⟨l, s'', hd, hst⟩ := h
        exact ih (n + 1) s'' (.own n s' l s'' hr hd hst) (by omega)
  exact key (s.left c) 0 s .start (by omega)

/-- A goroutine of the connection that cannot go on waits for a message, or for a slot. -/
theorem Settled.waits {c : ConnId} {s : State} (hr : Settled s c) (hc : s.g.crashed = none) {pc : PC} (hp : pc ∈ s.threads)
    (ho : pc.isOn c = true) : pc = .reading c ∨
      ∃ m, pc = .acquiring c m ∧ (s.g.conns c).limit > 1 ∧ ((s.g.conns c).slots : Int) ≥ (s.g.conns c).limit := by
  by_cases hrd : pc = .reading c
  · exact .inl hrd
  refine .inr ?_
  have hno : act s.g {} pc = none := by
    by_contra hx
    obtain ⟨pre, post, hts⟩ := List.append_of_mem hp
    obtain ⟨⟨g', pcs⟩, h⟩ := Option.ne_none_iff_exists'.mp hx
    obtain ⟨g, ts⟩ := s
    simp only at hts
    subst hts
    exact hr (.thread pc {}) _ ⟨ho, hrd⟩ (.thread g g' pre post pcs pc {} hc h)
  cases pc <;> simp only [act, reduceCtorEq] at hno
  case acquiring i m =>
    obtain rfl : i = c := by simpa [PC.isOn] using ho
    refine ⟨m, rfl, ?_⟩
    unfold actAcquiring at hno
    split at hno
    · split at hno
      · exact ⟨by assumption, by assumption⟩
      · cases hno
    · cases hno
  case waiting => cases ho

/-- A handler of the message is about to begin. -/
def PC.starts (c : ConnId) (m : LMsg) : PC → Bool
  | .starting c' m' _ => decide (c' = c ∧ m' = m)
  | _ => false

theorem PC.pends_starts {c : ConnId} {m : LMsg} {pc : PC} (h : pc.pends c m = true) :
    pc.starts c m = true ∨ pc.isReader c = true := by
  cases pc <;> simp_all [PC.pends, PC.starts, PC.isReader]

theorem PC.starts_pends {c : ConnId} {m : LMsg} {pc : PC} (h : pc.starts c m = true) : pc.pends c m = true := by
  cases pc <;> simp_all [PC.pends, PC.starts]

theorem PC.pends_isOn {c : ConnId} {m : LMsg} {pc : PC} (h : pc.pends c m = true) : pc.isOn c = true := by
  cases pc <;> simp_all [PC.pends, PC.isOn]

theorem PC.starts_isOn {c : ConnId} {m : LMsg} {pc : PC} (h : pc.starts c m = true) : pc.isOn c = true :=
  PC.pends_isOn (PC.starts_pends h)

theorem PC.runsMsg_isOn {c : ConnId} {m : LMsg} {pc : PC} (h : pc.runsMsg c m = true) : pc.isOn c = true := by
  cases pc <;> simp_all [PC.runsMsg, PC.isOn]

theorem Acts.starts {g g' : G} {ch : Choice} {pc : PC} {pcs : List PC} (h : Acts g ch pc g' pcs) (c : ConnId) (m : LMsg) :
    g.log.count (.start c m) + g.log.count (.dropped c m) + [pc].countP (PC.starts c m) ≤
      g'.log.count (.start c m) + g'.log.count (.dropped c m) + pcs.countP (PC.starts c m) := by
  cases h <;> simp [PC.starts, resume, closed, G.ev, G.upd, G.crash, unlinked, List.countP_cons, List.count_cons] <;>
    grind [PC.starts]

theorem Acts.newlyRefused {g g' : G} {ch : Choice} {pc : PC} {pcs : List PC} (h : Acts g ch pc g' pcs) (c : ConnId)
    (h0 : g.log.countP (LEv.isRefused c) = 0) (h1 : 0 < g'.log.countP (LEv.isRefused c)) :
    ∃ m, pc = .refusing c m ∧ g'.log = g.log ++ [.refused c m] := by
  have key : ∀ e, (g.log ++ [e]).countP (LEv.isRefused c) = if LEv.isRefused c e = true then 1 else 0 := by
    intro e
    rw [List.countP_append, h0, List.countP_singleton, Nat.zero_add]
  cases h <;> simp only [G.ev, G.upd, G.crash, unlinked, h0, key, Nat.lt_irrefl, LEv.isRefused, Bool.false_eq_true,
    if_false] at h1
  case refused c' m hw =>
    by_cases e : c' = c
    · subst e
      exact ⟨m, rfl, rfl⟩
    · simp [e] at h1

/-- Once a request of the connection was refused, the handlers of all signals that had arrived before `Shutdown` are at least
about to begin. -/
theorem ReachableIf.early {ok : State → Label → Prop} {s : State} (h : ReachableIf ok s) (c : ConnId) (m : LMsg)
    (hm : m.kind = .signal) (l1 l2 : List LEv) (hs : s.g.log = l1 ++ l2) (hstop : .stop ∉ l1)
    (href : 0 < s.g.log.countP (LEv.isRefused c)) :
    l1.count (.arrived c m) ≤ s.g.log.count (.start c m) + s.g.log.count (.dropped c m) +
      s.threads.countP (PC.starts c m) := by
  induction h generalizing l2 with
  | start => simp at href
  | step s l s' hr ho hst ih =>
    have hrf := hr.refInv
    have hstopped : 0 < s.g.log.countP (LEv.isRefused c) → .stop ∈ s.g.log := by
      intro hp
      obtain ⟨e, he, hi⟩ := List.countP_pos_iff.mp hp
      cases e <;> simp only [LEv.isRefused, decide_eq_true_eq, Bool.false_eq_true] at hi
      subst hi
      exact (hrf.log _ _ he).2
    cases hst with
    | thread g g' pre post pcs pc ch hc hact =>
      have ha := acts_of_act hact
      simp only at hs href ih hstopped hrf ⊢
      by_cases hp : 0 < g.log.countP (LEv.isRefused c)
      · have hsp := hstopped hp
        have hpre : ∃ l3, g.log = l1 ++ l3 := by
          rcases ha.log with he | ⟨e, he⟩
          · exact ⟨l2, he ▸ hs⟩
          · rw [he] at hs
            rcases List.append_eq_append_iff.mp hs with ⟨as, h1, h2⟩ | ⟨bs, h1, h2⟩
            · exact absurd (by rw [h1]; simp [hsp]) hstop
            · exact ⟨bs, h1⟩
        obtain ⟨l3, hl3⟩ := hpre
        have h1 := ih l3 hl3 hp
        have h2 := ha.starts c m
        simp only [List.countP_append, List.countP_cons, List.countP_nil] at *
        omega
      · obtain ⟨m0, rfl, hl⟩ := ha.newlyRefused c (by omega) href
        have hr0 := (hrf.on c m0 (by simp)).1
        have hne : m0 ≠ m := by
          rintro rfl
          simp [LMsg.requiresReply, hm] at hr0
        have hacc := hr.accounted c m (.inl hm)
        have hrd := (ReachableIf.inv hr).reader c
        simp only at hacc hrd
        have hz : g.log.count (.refused c m) = 0 := by
          rw [List.count_eq_zero]
          intro hx
          have := (hrf.log c m hx).1
          simp [LMsg.requiresReply, hm] at this
        have hpd : (pre ++ .refusing c m0 :: post).countP (PC.pends c m) ≤
            (pre ++ .refusing c m0 :: post).countP (PC.starts c m) := by
          simp only [List.countP_append, List.countP_cons, PC.isReader, decide_true, if_true] at hrd ⊢
          have e1 : pre.countP (PC.pends c m) ≤ pre.countP (PC.starts c m) := by
            refine List.countP_mono_left fun x hx hpx => ?_
            rcases PC.pends_starts hpx with h | h
            · exact h
            · have := List.countP_pos_iff.mpr ⟨x, hx, h⟩
              omega
          have e2 : post.countP (PC.pends c m) ≤ post.countP (PC.starts c m) := by
            refine List.countP_mono_left fun x hx hpx => ?_
            rcases PC.pends_starts hpx with h | h
            · exact h
            · have := List.countP_pos_iff.mpr ⟨x, hx, h⟩
              omega
          have e3 : PC.pends c m (.refusing c m0) = false := by simp [PC.pends, hne]
          rw [e3]
          simp only [Bool.false_eq_true, if_false]
          omega
        have h2 := ha.starts c m
        have h3 : l1.count (.arrived c m) ≤ g.log.count (.arrived c m) := by
          have : l1.count (LEv.arrived c m) ≤ g'.log.count (.arrived c m) := by rw [hs]; simp
          rw [hl] at this
          simpa [List.count_cons] using this
        simp only [List.countP_append, List.countP_cons, List.countP_nil] at *
        omega
    | connect g ts i limit hc hu => simpa [PC.starts] using ih l2 hs href
    | close g ts i hc hu => simpa [PC.starts] using ih l2 hs href
    | shutdown g ts hc => simpa [PC.starts] using ih l2 hs href

/-- C103: when the connection has settled, every signal that had arrived before `Shutdown` was called has been handled, as often
as it arrived, or it was ignored, as the connection was closed; so on a connection that is open it has been handled. No signal is
handled more often than it arrived. -/
theorem C103_handled (s : State) (h : Reachable s) (c : ConnId) (hc : s.g.crashed = none) (hr : Settled s c) (m : LMsg)
    (hm : m.kind = .signal) (l1 l2 : List LEv) (hs : s.g.log = l1 ++ l2) (hstop : .stop ∉ l1) :
    l1.count (.arrived c m) ≤ s.g.log.count (.finish c m) + s.g.log.count (.dropped c m) ∧
    ((s.g.conns c).active = true → l1.count (.arrived c m) ≤ s.g.log.count (.finish c m)) ∧
    s.g.log.count (.start c m) ≤ s.g.log.count (.arrived c m) := by
  have hi := h.inv
  have hno : ∀ p : PC → Bool, (∀ pc, p pc = true → pc.isOn c = true) → p (.reading c) = false →
      (∀ m, p (.acquiring c m) = false) → s.threads.countP p = 0 := by
    intro p h1 h2 h3
    rw [List.countP_eq_zero]
    intro pc hm hx
    rcases Settled.waits hr hc hm (h1 pc hx) with rfl | ⟨m, rfl, -⟩
    · rw [h2] at hx; cases hx
    · rw [h3] at hx; cases hx
  have hst := hno (PC.starts c m) (fun pc => PC.starts_isOn) rfl (fun _ => rfl)
  have hrun := hno (PC.runsMsg c m) (fun pc => PC.runsMsg_isOn) rfl (fun _ => rfl)
  have hslot := hno (PC.holdsSlot c) (fun pc => PC.holdsSlot_isOn) rfl (fun _ => rfl)
  have hfin := hi.runsMsg c m
  have hacc := h.accounted c m (.inl hm)
  have hz : s.g.log.count (.refused c m) = 0 := by
    rw [List.count_eq_zero]
    intro hx
    have := (h.refInv.log c m hx).1
    simp [LMsg.requiresReply, hm] at this
  have key : l1.count (.arrived c m) ≤ s.g.log.count (.finish c m) + s.g.log.count (.dropped c m) := by
    by_cases href : 0 < s.g.log.countP (LEv.isRefused c)
    · have := h.early c m hm l1 l2 hs hstop href
      omega
    · have hp : s.threads.countP (PC.pends c m) = 0 := by
        rw [List.countP_eq_zero]
        intro pc hmem hx
        rcases Settled.waits hr hc hmem (PC.pends_isOn hx) with rfl | ⟨m', rfl, hl, hsl⟩
        · simp [PC.pends] at hx
        · have := hi.slots c hl
          omega
      have : l1.count (LEv.arrived c m) ≤ s.g.log.count (.arrived c m) := by rw [hs]; simp
      omega
  refine ⟨key, fun ha => ?_, by omega⟩
  have : s.g.log.count (.dropped c m) = 0 := by
    rw [List.count_eq_zero]
    intro hd
    have := (h.kindInv.dropped c m hd).1
    rw [ha] at this; cases this
  omega

/-- A signal arrives and is handled while another handler runs; then the server is shut down, and two requests on the
connection, which has three handler slots, are refused: the connection has settled when the first handler has returned. -/
example : ∃ s, Reachable s ∧ s.g.crashed = none ∧ Settled s 1 ∧ (s.g.conns 1).active = true ∧
    s.g.log = [.arrived 1 (exReq 1), .start 1 (exReq 1), .arrived 1 ⟨.signal, 2⟩, .start 1 ⟨.signal, 2⟩] ++
      [.finish 1 ⟨.signal, 2⟩, .stop, .arrived 1 (exReq 3), .refused 1 (exReq 3), .arrived 1 (exReq 4),
        .refused 1 (exReq 4), .finish 1 (exReq 1)] := by
  obtain ⟨s, hp, hc, ht, h⟩ : ∃ s, play anyStep {} ([.connect 1 3, recv 0 (exReq 1)] ++ steps 0 6 ++ [recv 1 ⟨.signal, 2⟩] ++
      steps 1 10 ++ [.shutdown, .go 0] ++ [recv 2 (exReq 3)] ++ steps 2 4 ++ [recv 2 (exReq 4)] ++ steps 2 4 ++ steps 1 4) =
        some s ∧ s.g.crashed = none ∧ s.threads = [.waiting, .reading 1] ∧ (s.g.conns 1).active = true ∧
    s.g.log = [.arrived 1 (exReq 1), .start 1 (exReq 1), .arrived 1 ⟨.signal, 2⟩, .start 1 ⟨.signal, 2⟩] ++
      [.finish 1 ⟨.signal, 2⟩, .stop, .arrived 1 (exReq 3), .refused 1 (exReq 3), .arrived 1 (exReq 4),
        .refused 1 (exReq 4), .finish 1 (exReq 1)] := ⟨_, rfl, rfl, rfl, rfl, rfl⟩
  refine ⟨s, play_any hp, hc, fun l s' hd hst => ?_, h⟩
  cases hst with
  | thread g g' pre post pcs pc ch hc hact =>
    have hm : pc ∈ pre ++ pc :: post := by simp
    simp only at ht
    rw [ht] at hm
    simp only [List.mem_cons, List.not_mem_nil, or_false] at hm
    rcases hm with rfl | rfl
    · simp [Working, PC.isOn] at hd
    · simp [Working] at hd
  | _ => exact hd

/-- The signal must have arrived before `Shutdown`: after two requests were refused on a connection with two handler slots, which
keep them (C29), a signal is received and never handled, though the connection is open and has settled. -/
theorem C103_late_signals_lost : ∃ s, Reachable s ∧ s.g.crashed = none ∧ Settled s 1 ∧ (s.g.conns 1).active = true ∧
    .arrived 1 ⟨.signal, 3⟩ ∈ s.g.log ∧ .start 1 ⟨.signal, 3⟩ ∉ s.g.log ∧ .dropped 1 ⟨.signal, 3⟩ ∉ s.g.log := by
  obtain ⟨s, hp, hc, ht, hl, hs, h⟩ : ∃ s, play anyStep {} (exExhausted ++ [recv 0 ⟨.signal, 3⟩, .go 0]) = some s ∧
      s.g.crashed = none ∧ s.threads = [.acquiring 1 ⟨.signal, 3⟩] ∧ (s.g.conns 1).limit = 2 ∧ (s.g.conns 1).slots = 2 ∧
      (s.g.conns 1).active = true ∧ .arrived 1 ⟨.signal, 3⟩ ∈ s.g.log ∧ .start 1 ⟨.signal, 3⟩ ∉ s.g.log ∧
      .dropped 1 ⟨.signal, 3⟩ ∉ s.g.log := ⟨_, rfl, rfl, rfl, rfl, rfl, rfl, by decide, by decide, by decide⟩
  refine ⟨s, play_any hp, hc, fun l s' hd hst => ?_, h⟩
  cases hst with
  | thread g g' pre post pcs pc ch hc hact =>
    have hm : pc ∈ pre ++ pc :: post := by simp
    simp only at ht hl hs
    rw [ht, List.mem_singleton] at hm
    subst hm
    simp [act, actAcquiring, hl, hs] at hact
  | _ => exact hd

end Webwire.Life
