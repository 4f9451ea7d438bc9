import Verif.Proofs.Lifecycle2
import Mathlib.Data.List.Chain

/-!
# Invariants of executions: refused messages, closed connections, message order
-/

set_option autoImplicit false

namespace Webwire.Life

/-! ## Which requests are accepted -/

/-- Requests that passed the shutdown check and did not start yet. -/
def PC.accepted (c : ConnId) (m : LMsg) : PC → Bool
  | .tasking c' m' | .dispatching c' m' | .starting c' m' _ => decide (c' = c ∧ m' = m)
  | _ => false

/-- The event happened, and before any call of `Shutdown`. -/
def Early (log : List LEv) (e : LEv) : Prop := e ∈ log ∧ ∀ pre post, log = pre ++ .stop :: post → e ∈ pre

theorem Early.append {log : List LEv} {e : LEv} (h : Early log e) (x : LEv) : Early (log ++ [x]) e := by
  refine ⟨by simp [h.1], ?_⟩
  intro pre post hs
  rcases append_eq_split hs with ⟨rfl, -, -⟩ | ⟨l3, -, hl3⟩
  · exact h.1
  · exact h.2 pre l3 hl3

structure AccInv (s : State) : Prop where
  stop : .stop ∈ s.g.log → s.g.shutdown = true
  arrived : ∀ pc ∈ s.threads, ∀ c m, pc.pends c m = true → .arrived c m ∈ s.g.log
  accepted : ∀ pc ∈ s.threads, ∀ c m, m.requiresReply = true → pc.accepted c m = true →
    Early s.g.log (.arrived c m)
  started : ∀ c m, m.requiresReply = true → .start c m ∈ s.g.log → Early s.g.log (.arrived c m)

theorem Acts.acc {g g' : G} {ch : Choice} {pc : PC} {pcs : List PC} (h : Acts g ch pc g' pcs)
    (hstop : .stop ∈ g.log → g.shutdown = true)
    (harr : ∀ c m, pc.pends c m = true → .arrived c m ∈ g.log)
    (hacc : ∀ c m, m.requiresReply = true → pc.accepted c m = true → Early g.log (.arrived c m)) :
    (.stop ∈ g'.log → g'.shutdown = true) ∧
    (∀ pc' ∈ pcs, ∀ c m, pc'.pends c m = true → .arrived c m ∈ g'.log) ∧
    (∀ pc' ∈ pcs, ∀ c m, m.requiresReply = true → pc'.accepted c m = true → Early g'.log (.arrived c m)) ∧
    (∀ c m, m.requiresReply = true → .start c m ∈ g'.log → .start c m ∈ g.log ∨ Early g'.log (.arrived c m)) := by
  have hE := @Early.append g.log
  cases h with
  | count c m hs =>
    have hno : .stop ∉ g.log := fun hm => by simp [hstop hm] at hs
    have harr := harr c m (by simp [PC.pends])
    refine ⟨hstop, ?_, ?_, ?_⟩
    · simp [PC.pends]; exact harr
    · simp only [List.mem_singleton, forall_eq, PC.accepted, decide_eq_true_eq]
      rintro c' m' _ ⟨rfl, rfl⟩
      refine ⟨harr, ?_⟩
      intro pre post hp
      exact absurd (by simp [hp]) hno
    · intro c' m' _ h; exact .inl h
  | _ =>
    simp only [PC.pends, PC.accepted, G.ev, G.upd, unlinked, G.crash, resume, closed] at *
    refine ⟨?_, ?_, ?_, ?_⟩ <;> grind [PC.pends, PC.accepted]

theorem AccInv.step {s s' : State} {l : Label} (hi : AccInv s) (h : Step s l s') : AccInv s' := by
  obtain ⟨h1, h2, h3, h4⟩ := hi
  cases h with
  | thread g g' pre post pcs pc ch hc hact =>
    have ha := acts_of_act hact
    obtain ⟨a1, a2, a3, a4⟩ := ha.acc h1 (h2 pc (by simp)) (h3 pc (by simp))
    have hlog : ∀ e, e ∈ g.log → e ∈ g'.log := by
      rcases ha.log with he | ⟨e, he⟩ <;> rw [he] <;> simp +contextual
    have hE : ∀ e, Early g.log e → Early g'.log e := by
      intro e hEa
      rcases ha.log with he | ⟨e, he⟩ <;> rw [he]
      · exact hEa
      · exact hEa.append _
    refine ⟨a1, ?_, ?_, ?_⟩
    · intro pc' hm
      simp only [List.mem_append] at hm
      rcases hm with hm | hm | hm
      · exact fun c m hp => hlog _ (h2 pc' (by simp [hm]) c m hp)
      · exact a2 pc' hm
      · exact fun c m hp => hlog _ (h2 pc' (by simp [hm]) c m hp)
    · intro pc' hm
      simp only [List.mem_append] at hm
      rcases hm with hm | hm | hm
      · exact fun c m hr hp => hE _ (h3 pc' (by simp [hm]) c m hr hp)
      · exact a3 pc' hm
      · exact fun c m hr hp => hE _ (h3 pc' (by simp [hm]) c m hr hp)
    · intro c m hr hm
      rcases a4 c m hr hm with h | h
      · exact hE _ (h4 c m hr h)
      · exact h
  | connect g ts c limit hc hu =>
    refine ⟨h1, ?_, ?_, h4⟩
    · intro pc hm
      rcases List.mem_cons.mp hm with rfl | hm
      · simp [PC.pends]
      · exact h2 pc hm
    · intro pc hm
      rcases List.mem_cons.mp hm with rfl | hm
      · simp [PC.accepted]
      · exact h3 pc hm
  | close g ts c hc hu =>
    refine ⟨h1, ?_, ?_, h4⟩
    · intro pc hm
      rcases List.mem_cons.mp hm with rfl | hm
      · simp [PC.pends]
      · exact h2 pc hm
    · intro pc hm
      rcases List.mem_cons.mp hm with rfl | hm
      · simp [PC.accepted]
      · exact h3 pc hm
  | shutdown g ts hc =>
    refine ⟨h1, ?_, ?_, h4⟩
    · intro pc hm
      rcases List.mem_cons.mp hm with rfl | hm
      · simp [PC.pends]
      · exact h2 pc hm
    · intro pc hm
      rcases List.mem_cons.mp hm with rfl | hm
      · simp [PC.accepted]
      · exact h3 pc hm

theorem ReachableIf.accInv {ok : State → Label → Prop} {s : State} (h : ReachableIf ok s) : AccInv s := by
  induction h with
  | start => constructor <;> simp
  | step s l s' hr ho hs ih => exact ih.step hs

/-! ## What becomes of messages -/

theorem Acts.pendsCount {g g' : G} {ch : Choice} {pc : PC} {pcs : List PC} (h : Acts g ch pc g' pcs) (c : ConnId)
    (m : LMsg) (hm : m.kind = .signal ∨ m.kind = .request ∨ m.kind = .session) :
    g'.log.count (.arrived c m) + [pc].countP (PC.pends c m) + g.log.count (.dropped c m) +
        g.log.count (.refused c m) + g.log.count (.start c m) =
      g.log.count (.arrived c m) + pcs.countP (PC.pends c m) + g'.log.count (.dropped c m) +
        g'.log.count (.refused c m) + g'.log.count (.start c m) := by
  cases h <;> simp [PC.pends, resume, closed, G.ev, G.upd, G.crash, unlinked, List.countP_cons,
    List.count_cons] <;>
    grind [PC.pends]

theorem Step.accounted {s s' : State} {l : Label} (h : Step s l s') (c : ConnId)
    (m : LMsg) (hm : m.kind = .signal ∨ m.kind = .request ∨ m.kind = .session)
    (hi : s.g.log.count (.arrived c m) = s.g.log.count (.dropped c m) +
        s.g.log.count (.refused c m) + s.g.log.count (.start c m) + s.threads.countP (PC.pends c m)) :
    s'.g.log.count (.arrived c m) = s'.g.log.count (.dropped c m) +
        s'.g.log.count (.refused c m) + s'.g.log.count (.start c m) + s'.threads.countP (PC.pends c m) := by
  cases h with
  | thread g g' pre post pcs pc ch hc hact =>
    have := (acts_of_act hact).pendsCount c m hm
    simp only [List.countP_append, List.countP_cons, List.countP_nil] at *
    omega
  | connect g ts c limit hc hu => simpa [G.upd, PC.pends, List.countP_cons] using hi
  | close g ts c hc hu => simpa [PC.pends, List.countP_cons] using hi
  | shutdown g ts hc => simpa [PC.pends, List.countP_cons] using hi

theorem ReachableIf.accounted {ok : State → Label → Prop} {s : State} (h : ReachableIf ok s) (c : ConnId)
    (m : LMsg) (hm : m.kind = .signal ∨ m.kind = .request ∨ m.kind = .session) :
    s.g.log.count (.arrived c m) = s.g.log.count (.dropped c m) +
        s.g.log.count (.refused c m) + s.g.log.count (.start c m) + s.threads.countP (PC.pends c m) := by
  induction h with
  | start => simp
  | step s l s' hr ho hs ih => exact hs.accounted c m hm ih

/-! ## Closing connections -/

/-- What holds as long as `Close` does not come between check and registration of a message. -/
structure CloseInv (s : State) : Prop where
  between : ∀ c, (s.g.conns c).active = false → s.threads.countP (PC.between c) = 0
  unlinks : ∀ c, (s.g.conns c).sockCloses + s.threads.countP (PC.unlinks c) =
    if (s.g.conns c).used = true ∧ (s.g.conns c).active = false ∧ (s.g.conns c).tasks = 0 then 1 else 0

theorem Acts.between {g g' : G} {ch : Choice} {pc : PC} {pcs : List PC} (h : Acts g ch pc g' pcs) (c : ConnId)
    (hA : (g.conns c).active = false) :
    (g'.conns c).active = false ∧ pcs.countP (PC.between c) ≤ [pc].countP (PC.between c) := by
  cases h <;> simp [PC.between, resume, closed, G.ev, G.upd, G.crash, unlinked, List.countP_cons] <;>
    grind [PC.between]

theorem Acts.closes {g g' : G} {ch : Choice} {pc : PC} {pcs : List PC} (h : Acts g ch pc g' pcs) (c : ConnId)
    (hA : (g.conns c).active = true) (hA' : (g'.conns c).active = false) :
    (∃ rd, pc = .closing c rd) ∧ pcs.countP (PC.between c) = 0 := by
  cases h <;> simp [PC.between, resume, closed, G.ev, G.upd, G.crash, unlinked, List.countP_cons] at * <;>
    grind [PC.between]

/-- A step and the socket of the connection, when messages are registered on active connections only. -/
theorem Acts.sock {g g' : G} {ch : Choice} {pc : PC} {pcs : List PC} (h : Acts g ch pc g' pcs) (c : ConnId)
    (T : Nat) (U : Nat)
    (ht : (g.conns c).tasks = T + [pc].countP (PC.holdsTask c)) (hu : (g.conns c).used = true)
    (hb : (g.conns c).active = false → [pc].countP (PC.between c) = 0)
    (hi : (g.conns c).sockCloses + (U + [pc].countP (PC.unlinks c)) =
      if (g.conns c).active = false ∧ (g.conns c).tasks = 0 then 1 else 0) :
    (g'.conns c).sockCloses + (U + pcs.countP (PC.unlinks c)) =
      if (g'.conns c).active = false ∧ (g'.conns c).tasks = 0 then 1 else 0 := by
  cases h <;> simp [PC.between, PC.holdsTask, PC.unlinks, resume, closed, G.ev, G.upd, G.crash, unlinked,
    List.countP_cons] at * <;>
    grind [PC.between, PC.holdsTask, PC.unlinks]

theorem PC.between_isOn {c : ConnId} {pc : PC} (h : pc.between c = true) : pc.isOn c = true := by
  cases pc <;> simp_all [PC.between, PC.isOn]

theorem PC.unlinks_isOn {c : ConnId} {pc : PC} (h : pc.unlinks c = true) : pc.isOn c = true := by
  cases pc <;> simp_all [PC.unlinks, PC.isOn]

theorem between_zero {s : State} {c : ConnId}
    (h : ∀ m, PC.acquiring c m ∉ s.threads ∧ PC.counting c m ∉ s.threads ∧ PC.tasking c m ∉ s.threads) :
    s.threads.countP (PC.between c) = 0 := by
  rw [List.countP_eq_zero]
  intro pc hm hb
  cases pc <;> simp [PC.between] at hb <;> subst hb
  · exact (h _).1 hm
  · exact (h _).2.1 hm
  · exact (h _).2.2 hm

theorem CloseInv.step {s s' : State} {l : Label} (hi : CloseInv s) (hv : Inv s) (hn : Spec.NoCloseRace s l)
    (h : Step s l s') : CloseInv s' := by
  obtain ⟨h1, h2⟩ := hi
  obtain ⟨v1, v2, v3, -⟩ := hv
  cases h with
  | thread g g' pre post pcs pc ch hc hact =>
    have ha := acts_of_act hact
    have hone : ∀ p : PC → Bool, [pc].countP p = if p pc = true then 1 else 0 := by
      intro p; simp [List.countP_cons]
    have hbz : ∀ c rd, pc = .closing c rd → (g.conns c).active = true →
        (pre ++ pc :: post).countP (PC.between c) = 0 := by
      intro c rd hpc hA
      exact between_zero (s := ⟨g, pre ++ pc :: post⟩) (hn c rd ch (by rw [hpc]) hA)
    simp only [List.countP_append, List.countP_cons] at h1 h2 v1 v3 hbz
    constructor <;> intro c <;> simp only [List.countP_append]
    · intro hA'
      cases hA : (g.conns c).active
      · have := (ha.between c hA).2
        have := h1 c hA
        rw [hone] at *
        omega
      · obtain ⟨⟨rd, hpc⟩, hz⟩ := ha.closes c hA hA'
        have := hbz c rd hpc hA
        omega
    · cases hu : (g.conns c).used
      · have hu' : (g'.conns c).used = false := by rw [(ha.static c).1]; exact hu
        have hon := v1 c hu
        have hp : pc.isOn c = false := by
          cases hp : pc.isOn c
          · rfl
          · simp [hp] at hon
        have h3 := ha.on c hp
        have h4 := countP_zero_of_imp (fun _ => PC.unlinks_isOn) h3.1
        have h5 := h2 c
        have hneg : ¬ ((g.conns c).used = true ∧ (g.conns c).active = false ∧ (g.conns c).tasks = 0) := by
          simp [hu]
        rw [if_neg hneg] at h5
        rw [h3.2, if_neg hneg, h4]
        omega
      · have hu' : (g'.conns c).used = true := by rw [(ha.static c).1]; exact hu
        have h3 := ha.sock c (pre.countP (PC.holdsTask c) + post.countP (PC.holdsTask c))
          (pre.countP (PC.unlinks c) + post.countP (PC.unlinks c))
          (by have := v3 c; rw [hone]; push_cast at *; omega) hu
          (by
            intro hA
            have := h1 c hA
            rw [hone]
            omega)
          (by
            have := h2 c
            simp only [hu, true_and] at this
            rw [hone, ← this]
            omega)
        simp only [hu', true_and]
        rw [← h3]
        omega
  | connect g ts c limit hc hu =>
    have h0 := v1 c hu
    simp only at h0
    constructor <;> intro c' <;> simp only [connected, List.countP_cons, PC.between, PC.unlinks]
    · by_cases hcc : c' = c
      · simp [hcc]
      · simpa [hcc] using h1 c'
    · by_cases hcc : c' = c
      · subst hcc
        simp only [↓reduceIte, Bool.true_eq_false, false_and, and_false, Bool.false_eq_true]
        rw [countP_zero_of_imp (fun _ => PC.unlinks_isOn) h0.2]
      · simpa [hcc] using h2 c'
  | close g ts c hc hu =>
    constructor <;> intro c' <;> simp only [List.countP_cons, PC.between, PC.unlinks]
    · simpa using h1 c'
    · simpa using h2 c'
  | shutdown g ts hc =>
    constructor <;> intro c' <;> simp only [List.countP_cons, PC.between, PC.unlinks]
    · simpa using h1 c'
    · simpa using h2 c'

theorem ReachableIf.closeInv {s : State} (h : ReachableIf Spec.NoCloseRace s) : CloseInv s := by
  induction h with
  | start => constructor <;> simp
  | step s l s' hr ho hs ih => exact ih.step hr.inv ho hs

/-! ## One message after the other -/

/-- What may follow what on a connection without concurrency. -/
def Follows (c : ConnId) (x y : LEv) : Prop :=
  (∀ m, y = .start c m → x = .arrived c m) ∧ (∀ m, y = .finish c m ↔ x = .start c m)

/-- What holds on connections without concurrency. -/
structure SerialInv (c : ConnId) (s : State) : Prop where
  chain : (s.g.log.filter (LEv.isOf c)).IsChain (Follows c)
  head : ∀ x ∈ (s.g.log.filter (LEv.isOf c)).head?, ∀ m, x ≠ .start c m ∧ x ≠ .finish c m
  pend : ∀ pc ∈ s.threads, ∀ m, pc.pends c m = true →
    (s.g.log.filter (LEv.isOf c)).getLast? = some (.arrived c m)
  run : ∀ pc ∈ s.threads, ∀ m, pc.runsMsg c m = true →
    (s.g.log.filter (LEv.isOf c)).getLast? = some (.start c m)
  last : ∀ m, (s.g.log.filter (LEv.isOf c)).getLast? = some (.start c m) →
    ∃ pc ∈ s.threads, pc.runsMsg c m = true

theorem PC.pends_reader {c : ConnId} {m : LMsg} {pc : PC} (h : pc.pends c m = true) (hd : pc.detached c = false) :
    pc.isReader c = true := by
  cases pc <;> simp_all [PC.pends, PC.isReader, PC.detached]

theorem PC.runsMsg_reader {c : ConnId} {m : LMsg} {pc : PC} (h : pc.runsMsg c m = true)
    (hd : pc.detached c = false) : pc.isReader c = true := by
  cases pc <;> simp_all [PC.runsMsg, PC.isReader, PC.detached]

/-- A step and the events of a connection. -/
theorem Acts.ofLog {g g' : G} {ch : Choice} {pc : PC} {pcs : List PC} (h : Acts g ch pc g' pcs) (c : ConnId)
    (hd : pc.detached c = false) :
    (g'.log.filter (LEv.isOf c) = g.log.filter (LEv.isOf c) ∧
      (∀ m, pc.runsMsg c m = true → ∃ pc' ∈ pcs, pc'.runsMsg c m = true) ∧
      (∀ pc' ∈ pcs, ∀ m, (pc'.pends c m = true → pc.pends c m = true) ∧
        (pc'.runsMsg c m = true → pc.runsMsg c m = true))) ∨
    ∃ e, g'.log.filter (LEv.isOf c) = g.log.filter (LEv.isOf c) ++ [e] ∧ pc.isReader c = true ∧
      ((∃ m inl, e = .start c m ∧ pc.pends c m = true ∧ pcs = [.running c m inl]) ∨
       (∃ m, e = .finish c m ∧ pc.runsMsg c m = true ∧ ∀ pc' ∈ pcs, ∀ m, pc'.pends c m = false ∧ pc'.runsMsg c m = false) ∨
       ((∀ m, e ≠ .start c m ∧ e ≠ .finish c m ∧ pc.runsMsg c m = false) ∧
         ∀ pc' ∈ pcs, ∀ m, pc'.runsMsg c m = false ∧ (pc'.pends c m = true → e = .arrived c m))) := by
  cases h with
  | heartbeat c' m h1 h2 =>
    by_cases hcc : c' = c
    · subst hcc
      right
      refine ⟨.arrived c' m, by simp [G.ev, LEv.isOf], ?_⟩
      simp_all [PC.pends, PC.runsMsg, PC.isReader, PC.detached]
    · left
      simp [G.ev, LEv.isOf, hcc, PC.pends, PC.runsMsg]
  | read c' m h1 h2 =>
    by_cases hcc : c' = c
    · subst hcc
      right
      refine ⟨.arrived c' m, by simp [G.ev, LEv.isOf], ?_⟩
      simp_all [PC.pends, PC.runsMsg, PC.isReader, PC.detached]
    · left
      simp [G.ev, LEv.isOf, hcc, PC.pends, PC.runsMsg]
  | drop c' m h1 =>
    by_cases hcc : c' = c
    · subst hcc
      right
      refine ⟨.dropped c' m, by simp [G.ev, LEv.isOf], ?_⟩
      simp_all [PC.pends, PC.runsMsg, PC.isReader, PC.detached]
    · left
      simp [G.ev, LEv.isOf, hcc, PC.pends, PC.runsMsg]
  | refused c' m h1 =>
    by_cases hcc : c' = c
    · subst hcc
      right
      refine ⟨.refused c' m, by simp [G.ev, LEv.isOf], ?_⟩
      simp_all [PC.pends, PC.runsMsg, PC.isReader, PC.detached]
    · left
      simp [G.ev, LEv.isOf, hcc, PC.pends, PC.runsMsg]
  | begin c' m inl =>
    by_cases hcc : c' = c
    · subst hcc
      right
      refine ⟨.start c' m, by simp [G.ev, LEv.isOf], ?_⟩
      simp_all [PC.pends, PC.runsMsg, PC.isReader, PC.detached]
    · left
      simp [G.ev, LEv.isOf, hcc, PC.pends, PC.runsMsg]
  | finish c' m inl =>
    by_cases hcc : c' = c
    · subst hcc
      right
      refine ⟨.finish c' m, by simp [G.ev, LEv.isOf], ?_⟩
      simp_all [PC.pends, PC.runsMsg, PC.isReader, PC.detached]
    · left
      simp [G.ev, LEv.isOf, hcc, PC.pends, PC.runsMsg]
  | disconnect c'  =>
    by_cases hcc : c' = c
    · subst hcc
      right
      refine ⟨.disconnected c', by simp [G.ev, LEv.isOf], ?_⟩
      simp_all [PC.pends, PC.runsMsg, PC.isReader, PC.detached]
    · left
      simp [G.ev, LEv.isOf, hcc, PC.pends, PC.runsMsg]
  | _ =>
    left
    simp only [G.ev, G.upd, unlinked, G.crash, List.filter_append, List.filter_cons, LEv.isOf, PC.pends, PC.runsMsg,
      resume, closed, PC.detached] at *
    refine ⟨?_, ?_, ?_⟩ <;> grind [PC.pends, PC.runsMsg]

theorem SerialInv.step {c : ConnId} {s s' : State} {l : Label} (hi : SerialInv c s) (hv : Inv s)
    (h0 : 0 ≤ (s.g.conns c).limit) (h1 : (s.g.conns c).limit ≤ 1) (h : Step s l s') : SerialInv c s' := by
  obtain ⟨i1, i2, i3, i4, i5⟩ := hi
  have hd := hv.detached c h0 h1
  have hr := hv.reader c
  cases h with
  | thread g g' pre post pcs pc ch hc hact =>
    have ha := acts_of_act hact
    simp only at hd hr i1 i2 i3 i4 i5 h0 h1
    rw [List.countP_eq_zero] at hd
    have hdet : ∀ pc' ∈ pre ++ pc :: post, pc'.detached c = false := by
      intro pc' hm; simpa using hd pc' hm
    have hothers : pc.isReader c = true → ∀ pc', pc' ∈ pre ∨ pc' ∈ post → ∀ m,
        pc'.pends c m = false ∧ pc'.runsMsg c m = false := by
      intro hpr pc' hm m
      have hnr : pc'.isReader c = false := by
        simp only [List.countP_append, List.countP_cons, hpr, ↓reduceIte] at hr
        have z1 : pre.countP (PC.isReader c) = 0 := by omega
        have z2 : post.countP (PC.isReader c) = 0 := by omega
        rw [List.countP_eq_zero] at z1 z2
        rcases hm with hm | hm
        · simpa using z1 pc' hm
        · simpa using z2 pc' hm
      have hdd : pc'.detached c = false := hdet pc' (by rcases hm with hm | hm <;> simp [hm])
      constructor
      · cases hp : pc'.pends c m
        · rfl
        · simp [PC.pends_reader hp hdd] at hnr
      · cases hp : pc'.runsMsg c m
        · rfl
        · simp [PC.runsMsg_reader hp hdd] at hnr
    generalize hL : g.log.filter (LEv.isOf c) = L at *
    rcases ha.ofLog c (hdet pc (by simp)) with ⟨hl, hk1, hk2⟩ | ⟨e, hl, hpr, he⟩
    · rw [hL] at hl
      constructor <;> simp only [hl]
      · exact i1
      · exact i2
      · intro pc' hm m hp
        simp only [List.mem_append] at hm
        rcases hm with hm | hm | hm
        · exact i3 pc' (by simp [hm]) m hp
        · exact i3 pc (by simp) m ((hk2 pc' hm m).1 hp)
        · exact i3 pc' (by simp [hm]) m hp
      · intro pc' hm m hp
        simp only [List.mem_append] at hm
        rcases hm with hm | hm | hm
        · exact i4 pc' (by simp [hm]) m hp
        · exact i4 pc (by simp) m ((hk2 pc' hm m).2 hp)
        · exact i4 pc' (by simp [hm]) m hp
      · intro m hlast
        obtain ⟨pc', hm, hp⟩ := i5 m hlast
        simp only [List.mem_append, List.mem_cons] at hm
        rcases hm with hm | rfl | hm
        · exact ⟨pc', by simp [hm], hp⟩
        · obtain ⟨pc'', hm, hp⟩ := hk1 m hp
          exact ⟨pc'', by simp [hm], hp⟩
        · exact ⟨pc', by simp [hm], hp⟩
    · rw [hL] at hl
      have ho := hothers hpr
      have hlast : ∀ m, pc.runsMsg c m = false → L.getLast? ≠ some (.start c m) := by
        intro m hpm hx
        obtain ⟨pc', hm, hp⟩ := i5 m hx
        simp only [List.mem_append, List.mem_cons] at hm
        rcases hm with hm | rfl | hm
        · simp [(ho pc' (.inl hm) m).2] at hp
        · simp [hpm] at hp
        · simp [(ho pc' (.inr hm) m).2] at hp
      have hfol : ∀ x ∈ L.getLast?, Follows c x e := by
        intro x hx
        have hx : L.getLast? = some x := hx
        rcases he with ⟨m, inl, rfl, hp, -⟩ | ⟨m, rfl, hp, -⟩ | ⟨hn, -⟩
        · rw [i3 pc (by simp) m hp] at hx
          cases hx
          constructor <;> intro m' <;> simp
        · rw [i4 pc (by simp) m hp] at hx
          cases hx
          constructor <;> intro m' <;> simp
        · constructor <;> intro m'
          · intro h; exact absurd h (hn m').1
          · constructor
            · intro h; exact absurd h (hn m').2.1
            · rintro rfl; exact absurd hx (hlast m' (hn m').2.2)
      constructor <;> simp only [hl]
      · rw [List.isChain_append]
        refine ⟨i1, by simp, ?_⟩
        intro x hx y hy
        simp only [List.head?_cons, Option.mem_def, Option.some.injEq] at hy
        subst hy
        exact hfol x hx
      · intro x hx m
        cases L with
        | cons y ys =>
          simp only [List.cons_append, List.head?_cons] at hx i2
          exact i2 x hx m
        | nil =>
          simp only [List.nil_append, List.head?_cons, Option.mem_def, Option.some.injEq] at hx
          subst hx
          rcases he with ⟨m, inl, rfl, hp, -⟩ | ⟨m, rfl, hp, -⟩ | ⟨hn, -⟩
          · have := i3 pc (by simp) m hp; simp at this
          · have := i4 pc (by simp) m hp; simp at this
          · exact ⟨(hn m).1, (hn m).2.1⟩
      · intro pc' hm m hp
        simp only [List.mem_append] at hm
        rcases hm with hm | hm | hm
        · simp [(ho pc' (.inl hm) m).1] at hp
        · rcases he with ⟨m', inl, rfl, -, rfl⟩ | ⟨m', rfl, -, hz⟩ | ⟨-, hz⟩
          · simp only [List.mem_singleton] at hm; subst hm; simp [PC.pends] at hp
          · simp [(hz pc' hm m).1] at hp
          · simp [(hz pc' hm m).2 hp]
        · simp [(ho pc' (.inr hm) m).1] at hp
      · intro pc' hm m hp
        simp only [List.mem_append] at hm
        rcases hm with hm | hm | hm
        · simp [(ho pc' (.inl hm) m).2] at hp
        · rcases he with ⟨m', inl, rfl, -, rfl⟩ | ⟨m', rfl, -, hz⟩ | ⟨-, hz⟩
          · simp only [List.mem_singleton] at hm; subst hm; simp [PC.runsMsg] at hp; simp [hp]
          · simp [(hz pc' hm m).2] at hp
          · simp [(hz pc' hm m).1] at hp
        · simp [(ho pc' (.inr hm) m).2] at hp
      · intro m hx
        simp only [List.getLast?_append, List.getLast?_singleton, Option.some_or, Option.some.injEq] at hx
        subst hx
        rcases he with ⟨m', inl, he, -, rfl⟩ | ⟨m', he, -, hz⟩ | ⟨hn, -⟩
        · injection he with _ he; subst he
          exact ⟨.running c m inl, by simp, by simp [PC.runsMsg]⟩
        · cases he
        · exact absurd rfl (hn m).1
  | connect g ts c' limit hc hu =>
    refine ⟨i1, i2, ?_, ?_, ?_⟩
    · intro pc hm
      rcases List.mem_cons.mp hm with rfl | hm
      · simp [PC.pends]
      · exact i3 pc hm
    · intro pc hm
      rcases List.mem_cons.mp hm with rfl | hm
      · simp [PC.runsMsg]
      · exact i4 pc hm
    · intro m hx
      obtain ⟨pc, hm, hp⟩ := i5 m hx
      exact ⟨pc, by simp [hm], hp⟩
  | close g ts c' hc hu =>
    refine ⟨i1, i2, ?_, ?_, ?_⟩
    · intro pc hm
      rcases List.mem_cons.mp hm with rfl | hm
      · simp [PC.pends]
      · exact i3 pc hm
    · intro pc hm
      rcases List.mem_cons.mp hm with rfl | hm
      · simp [PC.runsMsg]
      · exact i4 pc hm
    · intro m hx
      obtain ⟨pc, hm, hp⟩ := i5 m hx
      exact ⟨pc, by simp [hm], hp⟩
  | shutdown g ts hc =>
    refine ⟨i1, i2, ?_, ?_, ?_⟩
    · intro pc hm
      rcases List.mem_cons.mp hm with rfl | hm
      · simp [PC.pends]
      · exact i3 pc hm
    · intro pc hm
      rcases List.mem_cons.mp hm with rfl | hm
      · simp [PC.runsMsg]
      · exact i4 pc hm
    · intro m hx
      obtain ⟨pc, hm, hp⟩ := i5 m hx
      exact ⟨pc, by simp [hm], hp⟩

/-- The limit of a connection never changes, but unused connections have limit 0 and become used ones. -/
theorem Step.limit {s s' : State} {l : Label} (h : Step s l s') (hv : Inv s) (c : ConnId)
    (h1 : 0 ≤ (s'.g.conns c).limit) (h2 : (s'.g.conns c).limit ≤ 1) :
    0 ≤ (s.g.conns c).limit ∧ (s.g.conns c).limit ≤ 1 := by
  cases h with
  | thread g g' pre post pcs pc ch hc hact =>
    have := ((acts_of_act hact).static c).2
    simp only at *
    omega
  | connect g ts c' limit hc hu =>
    by_cases hcc : c = c'
    · subst hcc
      have := (hv.unused c hu).1
      simp only at this
      simp [this]
    · simpa [G.upd, hcc] using And.intro h1 h2
  | close => exact ⟨h1, h2⟩
  | shutdown => exact ⟨h1, h2⟩

theorem ReachableIf.serialInv {ok : State → Label → Prop} {s : State} (h : ReachableIf ok s) (c : ConnId)
    (h1 : 0 ≤ (s.g.conns c).limit) (h2 : (s.g.conns c).limit ≤ 1) : SerialInv c s := by
  induction h with
  | start => constructor <;> simp
  | step s l s' hr ho hs ih =>
    have := hs.limit hr.inv c h1 h2
    exact (ih this.1 this.2).step hr.inv this.1 this.2 hs

end Webwire.Life
