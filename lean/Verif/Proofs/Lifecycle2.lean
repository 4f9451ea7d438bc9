import Verif.Proofs.Lifecycle

/-!
# Invariants of executions: shutdown, closing, message order
-/

set_option autoImplicit false

namespace Webwire.Life

theorem ReachableIf.mono {ok ok' : State → Label → Prop} (h : ∀ s l, ok s l → ok' s l) {s : State}
    (hr : ReachableIf ok s) : ReachableIf ok' s := by
  induction hr with
  | start => exact .start
  | step s l s' _ ho hs ih => exact .step s l s' ih (h _ _ ho) hs

theorem append_eq_split {α : Type} {log l1 l2 : List α} {e x : α} (h : log ++ [e] = l1 ++ x :: l2) :
    (l1 = log ∧ e = x ∧ l2 = []) ∨ ∃ l3, l2 = l3 ++ [e] ∧ log = l1 ++ x :: l3 := by
  rcases List.eq_nil_or_concat l2 with rfl | ⟨l3, y, rfl⟩
  · left
    have := List.append_inj' h rfl
    simp at this
    exact ⟨this.1.symm, this.2, rfl⟩
  · right
    rw [List.concat_eq_append] at *
    have h' : log ++ [e] = (l1 ++ x :: l3) ++ [y] := by simpa using h
    have := List.append_inj' h' rfl
    simp at this
    refine ⟨l3, ?_, this.1⟩
    rw [this.2]

/-! ## Shutdown -/

theorem Acts.counted {g g' : G} {ch : Choice} {pc : PC} {pcs : List PC} (h : Acts g ch pc g' pcs)
    (hl : ∀ c m, pc = .counting c m → g.shutdown = true → m.requiresReply = true) (hs : g.shutdown = true) :
    pcs.countP PC.counted ≤ [pc].countP PC.counted := by
  cases h <;> simp [PC.counted, resume, closed, List.countP_cons] <;> grind [PC.counted]

theorem Acts.length {g g' : G} {ch : Choice} {pc : PC} {pcs : List PC} (h : Acts g ch pc g' pcs) :
    pcs.length ≤ 2 := by
  cases h <;> simp [resume, closed] <;> split <;> simp

theorem Acts.shutdownMono {g g' : G} {ch : Choice} {pc : PC} {pcs : List PC} (h : Acts g ch pc g' pcs)
    (hs : g.shutdown = true) : g'.shutdown = true := by
  cases h <;> simp_all [G.ev, G.upd, G.crash, unlinked]

theorem Acts.downEv {g g' : G} {ch : Choice} {pc : PC} {pcs : List PC} (h : Acts g ch pc g' pcs)
    (he : g'.log = g.log ++ [.transportDown]) : pc = .stoppingTransport := by
  cases h <;> simp_all [G.ev, G.upd, G.crash, unlinked]

/-- What holds as long as no signal is processed during shutdown. -/
structure StopInv (s : State) : Prop where
  few : s.threads.length < 2 ^ 32
  ops : s.g.currentOps = UInt32.ofNat (s.threads.countP PC.counted)
  rdy : s.g.rdyClosed = true → s.g.shutdown = true ∧ s.threads.countP PC.counted = 0
  down : PC.stoppingTransport ∈ s.threads → s.g.shutdown = true ∧ s.threads.countP PC.counted = 0
  wait : PC.waiting ∈ s.threads → s.g.shutdown = true ∧
    (s.g.rdyClosed = true ∨ 0 < s.threads.countP PC.counted)
  noCrash : s.g.crashed ≠ some "close of closed channel"
  logged : ∀ l1 l2, s.g.log = l1 ++ .transportDown :: l2 →
    ∀ c m, l1.count (.start c m) = l1.count (.finish c m)

theorem PC.runsMsg_counted {c : ConnId} {m : LMsg} {pc : PC} (h : pc.runsMsg c m = true) : pc.counted = true := by
  cases pc <;> simp_all [PC.runsMsg, PC.counted]

theorem ofNat_lt_one {n : Nat} (hn : n < 2 ^ 32) : (UInt32.ofNat n < 1) ↔ n = 0 := by
  rw [UInt32.lt_iff_toNat_lt, UInt32.toNat_ofNat']
  have : (1 : UInt32).toNat = 1 := rfl
  rw [this, Nat.mod_eq_of_lt hn]
  omega

theorem ofNat_sub_one {n : Nat} : UInt32.ofNat (n + 1) - 1 = UInt32.ofNat n := by
  rw [UInt32.ofNat_add]
  have : UInt32.ofNat 1 = 1 := rfl
  rw [this]
  exact UInt32.add_sub_cancel _ _

/-- The part of `StopInv.step` about the goroutine making the step; `A` other goroutines are counted. -/
theorem Acts.stop {g g' : G} {ch : Choice} {pc : PC} {pcs : List PC} (h : Acts g ch pc g' pcs) (A : Nat)
    (hl : ∀ c m, pc = .counting c m → g.shutdown = true → m.requiresReply = true)
    (hA : A + 2 < 2 ^ 32) (hops : g.currentOps = UInt32.ofNat (A + [pc].countP PC.counted))
    (hrdy : g.rdyClosed = true → g.shutdown = true ∧ A + [pc].countP PC.counted = 0)
    (hdown : pc = .waiting → g.shutdown = true) :
    g'.currentOps = UInt32.ofNat (A + pcs.countP PC.counted) ∧
    (g'.rdyClosed = true → g'.shutdown = true ∧ A + pcs.countP PC.counted = 0) ∧
    (.stoppingTransport ∈ pcs → g'.shutdown = true ∧ A + pcs.countP PC.counted = 0) ∧
    (.waiting ∈ pcs → g'.shutdown = true ∧ 0 < A + pcs.countP PC.counted) ∧
    (g'.crashed = some "close of closed channel" → g.crashed = some "close of closed channel") ∧
    (g.shutdown = true → (g.rdyClosed = true ∨ 0 < A + [pc].countP PC.counted) →
      (g'.rdyClosed = true ∨ 0 < A + pcs.countP PC.counted)) := by
  have e1 := @ofNat_lt_one A (by omega)
  have e2 := @ofNat_sub_one A
  have e3 : UInt32.ofNat A + 1 = UInt32.ofNat (A + 1) := by rw [UInt32.ofNat_add]; rfl
  clear hA
  cases h <;> simp only [PC.counted, resume, closed, G.ev, G.upd, unlinked, G.crash, List.countP_cons,
    List.countP_nil, ↓reduceIte, Bool.false_eq_true, Nat.add_zero, Nat.zero_add] at *
  all_goals grind [PC.counted]

theorem StopInv.step {s s' : State} {l : Label} (hi : StopInv s) (hv : Inv s) (hn : Spec.NoLateSignal s l)
    (hf : Spec.FewGoroutines s l) (h : Step s l s') : StopInv s' := by
  have hi0 := hi
  obtain ⟨h1, h2, h3, h4, h5, h6, h7⟩ := hi
  unfold Spec.FewGoroutines at hf
  cases h with
  | thread g g' pre post pcs pc ch hc hact =>
    have ha := acts_of_act hact
    have hl : ∀ c m, pc = .counting c m → g.shutdown = true → m.requiresReply = true := by
      intro c m hpc hs
      exact hn c m ch (by rw [hpc]) hs
    have hone : [pc].countP PC.counted = if pc.counted = true then 1 else 0 := by
      simp [List.countP_cons]
    have hcp : ∀ l : List PC, (pre ++ (l ++ post)).countP PC.counted =
        (pre.countP PC.counted + post.countP PC.counted) + l.countP PC.counted := by
      intro l; simp only [List.countP_append]; omega
    have hcp0 := hcp [pc]
    simp only [List.singleton_append] at hcp0
    have hlen := ha.length
    have hle1 : pre.countP PC.counted ≤ pre.length := List.countP_le_length
    have hle2 : post.countP PC.counted ≤ post.length := List.countP_le_length
    simp only [List.length_append, List.length_cons] at hf
    simp only [hcp0] at h2 h3 h4 h5
    obtain ⟨s1, s2, s3, s4, s5, s6⟩ := ha.stop (pre.countP PC.counted + post.countP PC.counted) hl (by omega) h2 h3
      (fun hpc => (h5 (by simp [hpc])).1)
    have hmono := ha.shutdownMono
    have hcnt := ha.counted hl
    constructor
    · simp only [List.length_append]; omega
    · simp only [hcp]; exact s1
    · simp only [hcp]; exact s2
    · simp only [hcp]
      intro hm
      rcases List.mem_append.mp hm with hm | hm
      · have := h4 (by simp [hm])
        exact ⟨hmono this.1, by have := hcnt this.1; omega⟩
      · rcases List.mem_append.mp hm with hm | hm
        · exact s3 hm
        · have := h4 (by simp [hm])
          exact ⟨hmono this.1, by have := hcnt this.1; omega⟩
    · simp only [hcp]
      intro hm
      rcases List.mem_append.mp hm with hm | hm
      · have := h5 (by simp [hm])
        exact ⟨hmono this.1, s6 this.1 this.2⟩
      · rcases List.mem_append.mp hm with hm | hm
        · exact ⟨(s4 hm).1, .inr (s4 hm).2⟩
        · have := h5 (by simp [hm])
          exact ⟨hmono this.1, s6 this.1 this.2⟩
    · exact fun hx => h6 (s5 hx)
    · intro l1 l2 hlog c m
      rcases ha.log with he | ⟨e, he⟩
      · exact h7 l1 l2 (he ▸ hlog) c m
      · simp only at hlog
        rw [he] at hlog
        rcases append_eq_split hlog with ⟨rfl, rfl, rfl⟩ | ⟨l3, rfl, hl3⟩
        · have hpc : pc = .stoppingTransport := ha.downEv he
          have hz := (h4 (by simp [hpc])).2
          have := hv.runsMsg c m
          simp only at this
          rw [countP_zero_of_imp (fun _ => PC.runsMsg_counted) (hcp0.trans hz)] at this
          simpa using this
        · exact h7 l1 l3 hl3 c m
  | connect g ts c limit hc hu =>
    constructor <;> simp_all [G.upd, PC.counted]
  | close g ts c hc hu =>
    constructor <;> simp_all [PC.counted]
  | shutdown g ts hc =>
    constructor <;> simp_all [PC.counted]

/-- Executions in which shutdown works. -/
theorem ReachableIf.stopInv {s : State}
    (h : ReachableIf (fun s l => Spec.NoLateSignal s l ∧ Spec.FewGoroutines s l) s) : StopInv s := by
  induction h with
  | start => constructor <;> simp
  | step s l s' hr ho hs ih => exact ih.step hr.inv ho.1 ho.2 hs

end Webwire.Life
