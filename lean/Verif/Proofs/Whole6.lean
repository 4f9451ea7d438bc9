import Verif.Proofs.Whole5
import Verif.Spec.Whole

/-! Helper lemmas about clients and the server together: executions in which nothing new is asked for come to an end. -/

set_option autoImplicit false

namespace Webwire.Life

/-- More steps than the goroutine, and what it sends, can still make, if no message arrives. -/
def PC.left : PC → Nat
  | .reading _ => 4
  | .checking .. => 20
  | .acquiring .. => 19
  | .counting .. => 18
  | .refusing .. => 17
  | .tasking .. => 17
  | .dispatching .. => 16
  | .starting _ _ inl => 11 + if inl then 4 else 0
  | .running _ _ inl => 10 + if inl then 4 else 0
  | .uncounting _ inl => 4 + if inl then 4 else 0
  | .untasking _ inl => 3 + if inl then 4 else 0
  | .unlinking _ inl => 2 + if inl then 4 else 0
  | .releasing _ inl => 1 + if inl then 4 else 0
  | .closing .. => 3
  | .closeUnlinking .. => 2
  | .disconnecting _ => 1
  | .stopping => 3
  | .waiting => 2
  | .stoppingTransport => 1

/-- The same of a goroutine of the connection. -/
def PC.leftOn (c : ConnId) (pc : PC) : Nat := if pc.isOn c then pc.left else 0

/-- The same of all goroutines of the connection; a crash is a step, too. -/
def State.left (s : State) (c : ConnId) : Nat := (s.threads.map (PC.leftOn c)).sum + if s.g.crashed = none then 1 else 0

theorem Acts.left {g g' : G} {ch : Choice} {pc : PC} {pcs : List PC} (h : Acts g ch pc g' pcs) (hc : g.crashed = none) :
    (pcs.map PC.left).sum + (if g'.crashed = none then 1 else 0) +
      (match pc with | .running .. | .refusing .. => if g'.crashed = none then 5 else 0 | _ => 0) <
      pc.left + 1 + (match pc with | .reading _ => if ch.msg = none then 0 else 17 | _ => 0) := by
  cases h <;> simp_all [PC.left, G.ev, G.upd, G.crash, unlinked, resume, closed] <;> split_ifs <;> simp_all [PC.left] <;> omega

theorem Acts.leftOn {g g' : G} {ch : Choice} {pc : PC} {pcs : List PC} (h : Acts g ch pc g' pcs) {c : ConnId}
    (hp : pc.isOn c = true) : pcs.map (PC.leftOn c) = pcs.map PC.left := by
  cases h <;> simp_all [PC.leftOn, PC.isOn, resume, closed] <;> split_ifs <;> simp_all [PC.isOn, PC.leftOn]

theorem Acts.left_else {g g' : G} {ch : Choice} {pc : PC} {pcs : List PC} (h : Acts g ch pc g' pcs) {c : ConnId}
    (hp : pc.isOn c = false) : (pcs.map (PC.leftOn c)).sum = 0 := by
  cases h <;> simp_all [PC.leftOn, PC.isOn, resume, closed] <;> split_ifs <;> simp_all [PC.isOn, PC.leftOn]

theorem Step.left {s s' : State} {pc : PC} {ch : Choice} (h : Step s (.thread pc ch) s') {c : ConnId} (hp : pc.isOn c = true) :
    s'.left c + (match pc with | .running .. | .refusing .. => if s'.g.crashed = none then 5 else 0 | _ => 0) <
      s.left c + (match pc with | .reading _ => if ch.msg = none then 0 else 17 | _ => 0) := by
  cases h with
  | thread g g' pre post pcs pc ch hc hact =>
    have := (acts_of_act hact).left hc
    simp only [State.left, List.map_append, List.map_cons, List.sum_append, List.sum_cons, hc, if_true,
      (acts_of_act hact).leftOn hp]
    have he : pc.leftOn c = pc.left := if_pos hp
    rw [he]
    cases pc <;> simp only at this ⊢ <;> omega

theorem Step.left_plain {s s' : State} {pc : PC} {ch : Choice} (h : Step s (.thread pc ch) s') {c : ConnId}
    (hp : pc.isOn c = true) (hr : ∀ c, pc = .reading c → ch.msg = none) : s'.left c < s.left c := by
  have := h.left hp
  cases pc <;> simp_all <;> omega

theorem Step.left_any {s s' : State} {pc : PC} {ch : Choice} (h : Step s (.thread pc ch) s') {c : ConnId}
    (hp : pc.isOn c = true) : s'.left c < s.left c + 17 := by
  have := h.left hp
  cases pc <;> simp_all <;> (try split_ifs at this) <;> omega

theorem Step.left_answer {s s' : State} {pc : PC} {ch : Choice} (h : Step s (.thread pc ch) s') {i : ConnId}
    (hi : pc.isOn i = true)
    (hp : (∃ c m inl, pc = .running c m inl) ∨ ((∃ c m, pc = .refusing c m) ∧ ch.writerOk = true)) :
    s'.left i + 5 < s.left i := by
  have hl := h.left hi
  have hc : s'.g.crashed = none := by
    cases h with
    | thread g g' pre post pcs pc ch hc hact =>
      rcases hp with ⟨c, m, inl, rfl⟩ | ⟨⟨c, m, rfl⟩, hw⟩ <;> have ha := acts_of_act hact <;> cases ha <;> simp_all [G.ev]
  rcases hp with ⟨c, m, inl, rfl⟩ | ⟨⟨c, m, rfl⟩, -⟩ <;> simpa [hc] using hl

/-- Steps elsewhere. -/
theorem Step.left_else {s s' : State} {l : Label} (h : Step s l s') {c : ConnId}
    (hl : match l with
      | .thread pc _ => pc.isOn c = false
      | .connect i _ | .close i => i ≠ c
      | .shutdown => True) : s'.left c ≤ s.left c := by
  cases h with
  | thread g g' pre post pcs pc ch hc hact =>
    have := (acts_of_act hact).left_else hl
    simp only [State.left, List.map_append, List.map_cons, List.sum_append, List.sum_cons, hc, if_true, this]
    split_ifs <;> omega
  | connect g ts i limit hc hu => simp [State.left, PC.leftOn, PC.isOn, hl, hc]
  | close g ts i hc hu => simp [State.left, PC.leftOn, PC.isOn, hl]
  | shutdown g ts hc => simp [State.left, PC.leftOn, PC.isOn]

end Webwire.Life

namespace Webwire.Req

variable {R : Type}

/-- More steps than the goroutine can still make. -/
def PC.left : PC R → Nat
  | .creating _ => 1
  | .looking .. => 3
  | .removing .. => 2
  | .sending .. => 1
  | .awaiting _ => 2
  | .forgetting _ => 1

/-- The same of all goroutines. -/
def State.left (s : State R) : Nat := (s.threads.map PC.left).sum

theorem Acts.left {g g' : G R} {pc : PC R} {pcs : List (PC R)} (h : Acts g pc g' pcs) :
    (pcs.map PC.left).sum < pc.left := by
  cases h <;> simp [PC.left]

theorem Step.left {s s' : State R} {pc : PC R} {b : Bool} (h : Step s (.thread pc b) s') : s'.left < s.left := by
  cases h with
  | thread g g' pre post pcs pc b hact =>
    have := (acts_of_act hact).left
    simp only [State.left, List.map_append, List.map_cons, List.sum_append, List.sum_cons]
    omega

theorem Step.left_call {s s' : State R} {k : Bytes} {rep : R} (h : Step s (.call k rep) s') : s'.left = s.left + 3 := by
  cases h with
  | call g ts => simp [State.left, PC.left]; omega

end Webwire.Req

namespace Webwire.Whole
open _root_.Webwire.Spec

variable {cfg : Cfg} {s s' : State}

/-- What is left to do on the connection. -/
def State.left (s : State) (c : ConnId) : Nat :=
  s.srv.left c + 20 * ((s.sent c).length - s.taken c) + 4 * ((s.back c).length - s.seen c) + (s.clients c).left

theorem answers_length {c : ConnId} {m : Msg} {out : Out} {up : Bool} {bs : List Bytes} (hs : ideal cfg.srv)
    (h : answers cfg c m out up = .ok bs) : bs.length ≤ 1 := by
  rcases (answers_ok hs h).1 with rfl | ⟨call, _, _, rfl⟩ <;> simp

/-- Steps on the connection that ask for nothing new. -/
theorem Step.left {l : Label} (hs : ideal cfg.srv) (h : Step cfg s l s') {c : ConnId} (ho : Spec.On c l) (hn : ¬ Spec.New l) :
    s'.left c < s.left c := by
  cases h with
  | client i l cl _ hst =>
    obtain rfl : i = c := ho
    cases l with
    | thread pc b =>
      have := hst.left
      simp only [State.left, put_self]
      omega
    | _ => exact absurd trivial hn
  | send => exact absurd trivial hn
  | other => exact absurd trivial hn
  | push => exact absurd trivial hn
  | server l srv hi hst =>
    cases l with
    | thread pc ch =>
      have hlt := hst.left_plain (c := c) ho (by rintro c rfl; exact hi)
      simp only [State.left]
      omega
    | _ => exact absurd trivial hn
  | receive i x ok srv hx hst =>
    obtain rfl : i = c := ho
    have h1 := hst.left_any (c := i) (by simp [Life.PC.isOn])
    have h2 := (List.getElem?_eq_some_iff.mp hx).1
    simp only [State.left, put_self]
    omega
  | finish i n inl up ch out x m bs srv hx hm hst hfit hb =>
    obtain rfl : i = c := ho
    have h1 := hst.left_answer (i := i) (by simp [Life.PC.isOn]) (.inl ⟨_, _, _, rfl⟩)
    have h2 := answers_length hs hb
    simp only [State.left, put_self, List.length_append, List.length_map]
    omega
  | refuse i lm x m bs ch srv hx hm hwr hst hb =>
    obtain rfl : i = c := ho
    have h1 := hst.left_answer (i := i) (by simp [Life.PC.isOn]) (.inr ⟨⟨_, _, rfl⟩, hwr⟩)
    have h2 : bs.length = 1 := by rw [refusal_ok hs hb]; rfl
    simp only [State.left, put_self, List.length_append, List.length_map]
    omega
  | told i y k rep cl hy ht hst =>
    obtain rfl : i = c := ho
    have h1 := hst.left_call
    have h2 := (List.getElem?_eq_some_iff.mp hy).1
    simp only [State.left, put_self]
    omega
  | skip i y hy ht =>
    obtain rfl : i = c := ho
    have h2 := (List.getElem?_eq_some_iff.mp hy).1
    simp only [State.left, put_self]
    omega

/-- Steps elsewhere. -/
theorem Step.left_else {l : Label} (h : Step cfg s l s') {c : ConnId} (ho : ¬ Spec.On c l) : s'.left c ≤ s.left c := by
  cases h with
  | server l srv hi hst =>
    have := hst.left_else (c := c) (by cases l <;> simp_all [Spec.On])
    simp only [State.left]
    omega
  | receive i x ok srv hx hst =>
    have hne : c ≠ i := fun e => ho e.symm
    have := hst.left_else (c := c) (by simpa [Life.PC.isOn] using hne.symm)
    simp only [State.left, put_ne _ _ hne]
    omega
  | finish i n inl up ch out x m bs srv hx hm hst hfit hb =>
    have hne : c ≠ i := fun e => ho e.symm
    have := hst.left_else (c := c) (by simpa [Life.PC.isOn] using hne.symm)
    simp only [State.left, put_ne _ _ hne]
    omega
  | refuse i lm x m bs ch srv hx hm hwr hst hb =>
    have hne : c ≠ i := fun e => ho e.symm
    have := hst.left_else (c := c) (by simpa [Life.PC.isOn] using hne.symm)
    simp only [State.left, put_ne _ _ hne]
    omega
  | client i | send i | other i | push i | told i | skip i =>
    have hne : c ≠ i := fun e => ho e.symm
    simp only [State.left, put_ne _ _ hne, Nat.le_refl]

theorem Run.left (hs : ideal cfg.srv) {c : ConnId} {n : Nat} (h : Spec.Run cfg c s n s') : n + s'.left c ≤ s.left c := by
  induction h with
  | start => omega
  | own n s' l s'' _ ho hn hst ih =>
    have := hst.left hs ho hn
    omega
  | elsewhere n s' l s'' _ ho hst ih =>
    have := hst.left_else ho
    omega

theorem Run.reachable {c : ConnId} {n : Nat} (hr : Reachable cfg s) (h : Spec.Run cfg c s n s') : Reachable cfg s' := by
  induction h with
  | start => exact hr
  | own n s' l s'' _ ho hn hst ih => exact .step _ _ _ ih hst
  | elsewhere n s' l s'' _ ho hst ih => exact .step _ _ _ ih hst

end Webwire.Whole
