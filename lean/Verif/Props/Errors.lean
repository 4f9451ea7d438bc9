import Verif.Model.Errors
import Mathlib.Logic.Relation
import Mathlib.Tactic.SplitIfs

/-!
# Property C111: errors can be printed and told apart
-/

set_option autoImplicit false

namespace Webwire.Errors

namespace Spec

/-- `c` is what the error `e` stands for: its cause, if it is of a type that says no more than its cause; or what the pointer `e`
points to. -/
inductive StandsFor : GoErr → GoErr → Prop
  | deadlineExceeded (c : GoErr) : StandsFor (.deadlineExceeded c) c
  | disconnected (c : GoErr) : c ≠ .nil → StandsFor (.disconnected c) c
  | protocol (c : GoErr) : StandsFor (.protocol c) c
  | timeout (c : GoErr) : StandsFor (.timeout c) c
  | canceled (c : GoErr) : StandsFor (.canceled c) c
  | pointer (c : GoErr) : StandsFor (.pointer c) c

/-- What is at the end of the chain of causes. -/
def Root (e r : GoErr) : Prop := Relation.ReflTransGen StandsFor e r ∧ ∀ c, ¬ StandsFor r c

/-- `o` is a part of `e`, at any depth. -/
inductive Part (o : GoErr) : GoErr → Prop
  | self : Part o o
  | deadlineExceeded (c : GoErr) : Part o c → Part o (.deadlineExceeded c)
  | disconnected (c : GoErr) : Part o c → Part o (.disconnected c)
  | protocol (c : GoErr) : Part o c → Part o (.protocol c)
  | timeout (c : GoErr) : Part o c → Part o (.timeout c)
  | transmission (c : GoErr) : Part o c → Part o (.transmission c)
  | canceled (c : GoErr) : Part o c → Part o (.canceled c)
  | pointer (c : GoErr) : Part o c → Part o (.pointer c)

/-- Its `Error` method returns. -/
def Prints (e : GoErr) : Prop := ∃ s, text e = .ok s

end Spec
open Spec

/-- C111: every error but nil and nil pointers can be printed, if those of other packages in it can. -/
def C111_full : Prop :=
  ∀ e : GoErr, e ≠ .nil → ¬ Part (.pointer .nil) e → (∀ o, Part (.other o) e → ∃ s, o = .ok s) → Prints e

/-- **C111 is violated**: errors of four types panic when printed if they have no cause: `ErrTimeout{}`, `ErrDeadlineExceeded{}`,
`ErrCanceled{}`, `ErrProtocol{}`; `ErrDisconnected{}` and `ErrTransmission{}` do not. -/
theorem C111_violated : ¬ C111_full ∧
    (∀ e ∈ [GoErr.timeout .nil, .deadlineExceeded .nil, .canceled .nil, .protocol .nil],
      e ≠ .nil ∧ ¬ Part (.pointer .nil) e ∧ (∀ o, ¬ Part (.other o) e) ∧ ¬ Prints e) ∧
    Prints (.disconnected .nil) ∧ Prints (.transmission .nil) := by
  have four : ∀ e ∈ [GoErr.timeout .nil, .deadlineExceeded .nil, .canceled .nil, .protocol .nil],
      e ≠ .nil ∧ ¬ Part (.pointer .nil) e ∧ (∀ o, ¬ Part (.other o) e) ∧ ¬ Prints e := by
    intro e he
    simp only [List.mem_cons, List.not_mem_nil, or_false] at he
    rcases he with rfl | rfl | rfl | rfl <;>
      refine ⟨nofun, by rintro (_ | ⟨_, ⟨⟩⟩ | ⟨_, ⟨⟩⟩ | ⟨_, ⟨⟩⟩ | ⟨_, ⟨⟩⟩ | ⟨_, ⟨⟩⟩ | ⟨_, ⟨⟩⟩ | ⟨_, ⟨⟩⟩),
        by rintro o (_ | ⟨_, ⟨⟩⟩ | ⟨_, ⟨⟩⟩ | ⟨_, ⟨⟩⟩ | ⟨_, ⟨⟩⟩ | ⟨_, ⟨⟩⟩ | ⟨_, ⟨⟩⟩ | ⟨_, ⟨⟩⟩),
        by rintro ⟨s, hs⟩; simp [text, goPanic] at hs⟩
  refine ⟨fun hf => ?_, four, ⟨_, rfl⟩, ⟨_, rfl⟩⟩
  obtain ⟨h1, h2, h3, h4⟩ := four _ (List.mem_cons_self)
  exact h4 (hf _ h1 h2 fun o ho => absurd ho (h3 o))

theorem Spec.StandsFor.text_eq {e c : GoErr} (h : StandsFor e c) : text e = text c := by
  cases h with
  | disconnected _ hc => cases c <;> simp_all [text]
  | _ => simp [text]

theorem Spec.StandsFor.unique {e c c' : GoErr} (h : StandsFor e c) (h' : StandsFor e c') : c = c' := by
  cases h <;> cases h' <;> rfl

/-- C111: every error has one root, and prints as that does. -/
theorem C111_root (e : GoErr) : ∃ r, Root e r ∧ (∀ r', Root e r' → r' = r) ∧ text e = text r := by
  have key : ∀ e c, StandsFor e c → (∃ r, Root c r ∧ (∀ r', Root c r' → r' = r) ∧ text c = text r) →
      ∃ r, Root e r ∧ (∀ r', Root e r' → r' = r) ∧ text e = text r := by
    rintro e c h ⟨r, hr, hu, ht⟩
    refine ⟨r, ⟨.head h hr.1, hr.2⟩, ?_, h.text_eq.trans ht⟩
    rintro r' ⟨h1, h2⟩
    rcases Relation.ReflTransGen.cases_head h1 with rfl | ⟨c', h3, h4⟩
    · exact absurd h (h2 c)
    · rw [h.unique h3] at hu
      exact hu r' ⟨h4, h2⟩
  have last : ∀ e, (∀ c, ¬ StandsFor e c) → ∃ r, Root e r ∧ (∀ r', Root e r' → r' = r) ∧ text e = text r := by
    intro e he
    refine ⟨e, ⟨.refl, he⟩, ?_, rfl⟩
    rintro r' ⟨h1, h2⟩
    rcases Relation.ReflTransGen.cases_head h1 with rfl | ⟨c', h3, h4⟩
    · rfl
    · exact absurd h3 (he c')
  induction e with
  | deadlineExceeded c ih => exact key _ c (.deadlineExceeded c) ih
  | protocol c ih => exact key _ c (.protocol c) ih
  | timeout c ih => exact key _ c (.timeout c) ih
  | canceled c ih => exact key _ c (.canceled c) ih
  | pointer c ih => exact key _ c (.pointer c) ih
  | disconnected c ih =>
    by_cases hc : c = .nil
    · subst hc
      exact last _ (by rintro c ⟨⟩; contradiction)
    · exact key _ c (.disconnected c hc) ih
  | _ => exact last _ (by rintro c ⟨⟩)

/-- **C111, exactly which errors can be printed**: those whose chain of causes does not end with nothing, or with an error of
another package that cannot be printed itself. (In the cause of `ErrTransmission` anything goes that comes to an end.) Missing
compared to `C111_full`: chains that end with nothing. -/
theorem C111_partial (e r : GoErr) (h : Root e r) :
    Prints e ↔ r ≠ .nil ∧ (∀ o, r = .other o → ∃ s, o = .ok s) ∧
      ∀ c, r = .transmission c → ∀ why, text c ≠ .error (.deadlock why) := by
  obtain ⟨r', -, hu, ht⟩ := C111_root e
  rw [← hu r h] at ht
  unfold Prints
  rw [ht]
  have hr := h.2
  cases r with
  | nil => simp [text, goPanic]
  | other o => simp [text]
  | transmission c =>
    simp only [text, ne_eq, reduceCtorEq, not_false_eq_true, true_and, false_implies, implies_true,
      GoErr.transmission.injEq, forall_eq']
    cases hc : text c with
    | ok s => simp [sprintf, bind, Except.bind, pure, Except.pure]
    | error w => cases w <;> simp [sprintf, bind, Except.bind, pure, Except.pure]
  | deadlineExceeded c => exact absurd (.deadlineExceeded c) (hr c)
  | protocol c => exact absurd (.protocol c) (hr c)
  | timeout c => exact absurd (.timeout c) (hr c)
  | canceled c => exact absurd (.canceled c) (hr c)
  | pointer c => exact absurd (.pointer c) (hr c)
  | disconnected c =>
    by_cases hc : c = .nil
    · subst hc; simp [text]
    · exact absurd (.disconnected c hc) (hr c)
  | _ => simp [text]

theorem sprintf_prints {r : Go String} (h : ∀ why, r ≠ .error (.deadlock why)) : ∃ s, sprintf r = .ok s := by
  cases r with
  | ok s => exact ⟨s, rfl⟩
  | error w =>
    cases w with
    | panic m => exact ⟨_, rfl⟩
    | deadlock m => exact absurd rfl (h m)

/-- C111: the errors this library makes can be printed. -/
theorem C111_own (e : GoErr) (h : Own e) : Prints e := by
  cases h with
  | context e hd =>
    obtain ⟨s, hs⟩ := sprintf_prints hd
    cases e <;> simp only [translateContextError, text] at hs ⊢ <;>
      first
        | exact ⟨_, rfl⟩
        | (unfold Prints; simp only [text]; rw [hs]; exact ⟨_, rfl⟩)
  | _ => exact ⟨_, rfl⟩

/-- C111: what `AwaitReply` returns when its context ends is a timeout exactly if the deadline passed, a cancellation exactly if
the context was cancelled, and nothing is both; an error of a context prints as before, and others are mentioned. -/
theorem C111_context (e : GoErr) :
    (isErrTimeout (translateContextError e) = true ↔ e = .ctxDeadline) ∧
    (isErrCanceled (translateContextError e) = true ↔ e = .ctxCanceled) ∧
    (∀ x, ¬ (isErrTimeout x = true ∧ isErrCanceled x = true)) ∧
    (e = .ctxDeadline ∨ e = .ctxCanceled → text (translateContextError e) = text e) ∧
    (∀ s, e ≠ .ctxDeadline → e ≠ .ctxCanceled → text e = .ok s →
      text (translateContextError e) = .ok ("unexpected context error: " ++ s)) := by
  refine ⟨?_, ?_, ?_, ?_, ?_⟩
  · cases e <;> simp [translateContextError, isErrTimeout]
  · cases e <;> simp [translateContextError, isErrCanceled]
  · intro x; cases x <;> simp [isErrTimeout, isErrCanceled]
  · rintro (rfl | rfl) <;> rfl
  · intro s h1 h2 hs
    cases e with
    | nil => simp [text, goPanic] at hs
    | ctxDeadline => exact absurd rfl h1
    | ctxCanceled => exact absurd rfl h2
    | _ =>
      simp only [translateContextError]
      change (do let t ← sprintf (text _); pure ("unexpected context error: " ++ t)) = _
      rw [hs]; rfl

/-- C111, non-vacuity: an error four levels deep, and its root. -/
example : Root (.disconnected (.pointer (.timeout (.other (.ok "late"))))) (.other (.ok "late")) ∧
    text (.disconnected (.pointer (.timeout (.other (.ok "late"))))) = .ok "late" :=
  ⟨⟨.head (.disconnected _ nofun) (.head (.pointer _) (.head (.timeout _) .refl)), by rintro c ⟨⟩⟩, rfl⟩

end Webwire.Errors
