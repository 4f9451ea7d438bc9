import Verif.Proofs.Simulate
import Verif.Proofs.Net

/-! Helper lemmas: when sockets cannot be told apart, neither can the servers on them. -/

set_option autoImplicit false

namespace Webwire
open Spec

variable {ν₁ ν₂ υ : Type}

/-- The four operations on sockets, and `IsConnected`, give the same results. -/
structure SockFollows (ρ : ν₁ → ν₂ → Prop) (s₁ : Sockets ν₁) (s₂ : Sockets ν₂) : Prop where
  getWriter : ∀ n₁ n₂ c, ρ n₁ n₂ → Follows (fun a b => ρ a.1 b.1 ∧ a.2 = b.2) (s₁.getWriter n₁ c) (s₂.getWriter n₂ c)
  write : ∀ n₁ n₂ c b, ρ n₁ n₂ →
    Follows (fun a b => ρ a.1 b.1 ∧ a.2 = b.2) ((s₁.writer c).write n₁ b) ((s₂.writer c).write n₂ b)
  flush : ∀ n₁ n₂ c, ρ n₁ n₂ →
    Follows (fun a b => ρ a.1 b.1 ∧ a.2 = b.2) ((s₁.writer c).close n₁) ((s₂.writer c).close n₂)
  close : ∀ n₁ n₂ c, ρ n₁ n₂ → Follows (fun a b => ρ a.1 b.1 ∧ a.2 = b.2) (s₁.close n₁ c) (s₂.close n₂ c)
  isConnected : ∀ n₁ n₂ c, ρ n₁ n₂ → s₁.isConnected n₁ c = s₂.isConnected n₂ c

namespace SockFollows

variable {ρ : ν₁ → ν₂ → Prop} {s₁ : Sockets ν₁} {s₂ : Sockets ν₂} (F : SockFollows ρ s₁ s₂)
include F

theorem closeWith {n₁ : ν₁} {n₂ : ν₂} (h : ρ n₁ n₂) (c : ConnId) (e : Err) :
    Follows (fun a b => ρ a.1 b.1 ∧ a.2 = b.2) (closeWith (s₁.writer c) n₁ e) (closeWith (s₂.writer c) n₂ e) := by
  refine (F.flush _ _ c h).bind ?_
  rintro ⟨n₁, e⟩ ⟨n₂, e'⟩ ⟨h, he⟩
  cases he
  cases e with
  | none => exact .ok ⟨h, rfl⟩
  | some e => exact .ok ⟨h, rfl⟩

theorem writePart {n₁ : ν₁} {n₂ : ν₂} (h : ρ n₁ n₂) (c : ConnId) (b : Bytes) {k₁ : ν₁ → Go (ν₁ × Option Err)}
    {k₂ : ν₂ → Go (ν₂ × Option Err)}
    (hk : ∀ n₁ n₂, ρ n₁ n₂ → Follows (fun a b => ρ a.1 b.1 ∧ a.2 = b.2) (k₁ n₁) (k₂ n₂)) :
    Follows (fun a b => ρ a.1 b.1 ∧ a.2 = b.2) (writePart (s₁.writer c) n₁ b k₁) (writePart (s₂.writer c) n₂ b k₂) := by
  refine (F.write _ _ c b h).bind ?_
  rintro ⟨n₁, e⟩ ⟨n₂, e'⟩ ⟨h, he⟩
  cases he
  cases e with
  | none => exact hk _ _ h
  | some e => exact F.closeWith h c e

omit F in
theorem nameLen {α β : Type} {R : α → β → Prop} (n : Nat) {f : Bytes → Go α} {g : Bytes → Go β} (h : ∀ b, Follows R (f b) (g b)) :
    Follows R (nameLenPart n >>= f) (nameLenPart n >>= g) := by
  cases nameLenPart n with
  | error e => intro a ha; cases ha
  | ok b => exact h b

theorem run {n₁ : ν₁} {n₂ : ν₂} (h : ρ n₁ n₂) (c : ConnId) (call : WriterCall) :
    Follows (fun a b => ρ a.1 b.1 ∧ a.2 = b.2) (call.run (s₁.writer c) n₁) (call.run (s₂.writer c) n₂) := by
  have last : ∀ {n₁ n₂} (b : Bytes), ρ n₁ n₂ → Follows (fun a b => ρ a.1 b.1 ∧ a.2 = b.2)
      (Webwire.writePart (s₁.writer c) n₁ b fun s => (s₁.writer c).close s)
      (Webwire.writePart (s₂.writer c) n₂ b fun s => (s₂.writer c).close s) :=
    fun b h => F.writePart h c b fun _ _ h => F.flush _ _ c h
  have bad : ∀ {n₁ n₂} (e : Err), ρ n₁ n₂ → Follows (fun a b => ρ a.1 b.1 ∧ a.2 = b.2)
      (Webwire.closeWith (s₁.writer c) n₁ e) (Webwire.closeWith (s₂.writer c) n₂ e) := fun e h => F.closeWith h c e
  cases call with
  | request id name enc payload safe =>
    refine .ite Iff.rfl (bad _ h) (.ite Iff.rfl (bad _ h) (.ite Iff.rfl (bad _ h) (.ite Iff.rfl (bad _ h) ?_)))
    exact F.writePart h c _ fun _ _ h => F.writePart h c _ fun _ _ h => nameLen _ fun b => F.writePart h c _ fun _ _ h =>
      F.writePart h c _ fun _ _ h => .ite Iff.rfl (F.writePart h c _ fun _ _ h => last _ h) (last _ h)
  | signal name enc payload safe =>
    refine .ite Iff.rfl (bad _ h) (.ite Iff.rfl (bad _ h) (.ite Iff.rfl (bad _ h) ?_))
    have rest : ∀ {n₁ n₂}, ρ n₁ n₂ → Follows (fun a b => ρ a.1 b.1 ∧ a.2 = b.2)
        (if enc = encUtf16 ∧ name.length % 2 ≠ 0 then
          Webwire.writePart (s₁.writer c) n₁ msgHeaderPadding fun s =>
          Webwire.writePart (s₁.writer c) s payload fun s => (s₁.writer c).close s
        else Webwire.writePart (s₁.writer c) n₁ payload fun s => (s₁.writer c).close s)
        (if enc = encUtf16 ∧ name.length % 2 ≠ 0 then
          Webwire.writePart (s₂.writer c) n₂ msgHeaderPadding fun s =>
          Webwire.writePart (s₂.writer c) s payload fun s => (s₂.writer c).close s
        else Webwire.writePart (s₂.writer c) n₂ payload fun s => (s₂.writer c).close s) := fun h =>
      .ite Iff.rfl (F.writePart h c _ fun _ _ h => last _ h) (last _ h)
    exact F.writePart h c _ fun _ _ h => nameLen _ fun b => F.writePart h c _ fun _ _ h =>
      .ite Iff.rfl (F.writePart h c _ fun _ _ h => rest h) (rest h)
  | reply id enc payload =>
    refine .ite Iff.rfl (bad _ h) ?_
    exact F.writePart h c _ fun _ _ h => F.writePart h c _ fun _ _ h =>
      .ite Iff.rfl (F.writePart h c _ fun _ _ h => last _ h) (last _ h)
  | errorReply id code text safe =>
    refine .ite Iff.rfl (bad _ h) (.ite Iff.rfl (bad _ h) (.ite Iff.rfl (bad _ h) ?_))
    exact F.writePart h c _ fun _ _ h => F.writePart h c _ fun _ _ h => nameLen _ fun b => F.writePart h c _ fun _ _ h =>
      F.writePart h c _ fun _ _ h => last _ h
  | special t id =>
    have go : ∀ t, Follows (fun a b => ρ a.1 b.1 ∧ a.2 = b.2)
        (Webwire.writePart (s₁.writer c) n₁ [t] fun s => Webwire.writePart (s₁.writer c) s id fun s => (s₁.writer c).close s)
        (Webwire.writePart (s₂.writer c) n₂ [t] fun s => Webwire.writePart (s₂.writer c) s id fun s => (s₂.writer c).close s) :=
      fun t => F.writePart h c _ fun _ _ h => last _ h
    exact .ite Iff.rfl (go _) (.ite Iff.rfl (go _) (.ite Iff.rfl (go _) (.ite Iff.rfl (go _) (.ite Iff.rfl (go _) (bad _ h)))))
  | nameless t id payload =>
    have go : ∀ t, Follows (fun a b => ρ a.1 b.1 ∧ a.2 = b.2)
        (Webwire.writePart (s₁.writer c) n₁ [t] fun s => Webwire.writePart (s₁.writer c) s id fun s =>
          if payload.length > 0 then Webwire.writePart (s₁.writer c) s payload fun s => (s₁.writer c).close s
          else (s₁.writer c).close s)
        (Webwire.writePart (s₂.writer c) n₂ [t] fun s => Webwire.writePart (s₂.writer c) s id fun s =>
          if payload.length > 0 then Webwire.writePart (s₂.writer c) s payload fun s => (s₂.writer c).close s
          else (s₂.writer c).close s) :=
      fun t => F.writePart h c _ fun _ _ h => F.writePart h c _ fun _ _ h => .ite Iff.rfl (last _ h) (F.flush _ _ c h)
    exact .ite Iff.rfl (go _) (.ite Iff.rfl (.panic _ _) (go _))
  | heartbeat => exact last _ h
  | sessionClosed => exact last _ h
  | sessionCreated info => exact F.writePart h c _ fun _ _ h => last _ h

theorem sendOn {n₁ : ν₁} {n₂ : ν₂} (h : ρ n₁ n₂) (c : ConnId) {f : Writer ν₁ → ν₁ → Go (ν₁ × Option Err)}
    {g : Writer ν₂ → ν₂ → Go (ν₂ × Option Err)}
    (hf : ∀ n₁ n₂, ρ n₁ n₂ → Follows (fun a b => ρ a.1 b.1 ∧ a.2 = b.2) (f (s₁.writer c) n₁) (g (s₂.writer c) n₂)) :
    Follows (fun a b => ρ a.1 b.1 ∧ a.2 = b.2) (sendOn s₁ n₁ c f) (sendOn s₂ n₂ c g) := by
  refine (F.getWriter _ _ c h).bind ?_
  rintro ⟨n₁, e⟩ ⟨n₂, e'⟩ ⟨h, he⟩
  cases he
  cases e with
  | some e => exact .ok ⟨h, rfl⟩
  | none =>
    refine (hf _ _ h).bind ?_
    rintro ⟨n₁, e⟩ ⟨n₂, e'⟩ ⟨h, he⟩
    cases he
    exact .ok ⟨h, rfl⟩

theorem mimics {s₁' : Server ν₁ υ} {s₂' : Server ν₂ υ} (h1 : s₁'.sock = s₁) (h2 : s₂'.sock = s₂)
    (hh : s₂'.hooks = s₁'.hooks) (hse : s₁'.sessionsEnabled = s₂'.sessionsEnabled) (hm : s₁'.maxConns = s₂'.maxConns)
    (hb : s₁'.bufferSize = s₂'.bufferSize) (hc : s₁'.configMsg = s₂'.configMsg) : Mimics ρ s₁' s₂' where
  hooks := ⟨s₁'.hooks.onRequest, by rw [hh]⟩
  sessionsEnabled := hse
  maxConns := hm
  bufferSize := hb
  configMsg := hc
  send n₁ n₂ c call _ h := by rw [h1, h2]; exact F.sendOn h c fun _ _ h => F.run h c call
  conf n₁ n₂ c bs h := by
    rw [h1, h2]
    exact F.sendOn h c fun _ _ h => F.writePart h c _ fun _ _ h => F.flush _ _ c h
  close n₁ n₂ c h := by rw [h1, h2]; exact (F.close _ _ c h).mono fun _ _ h => h.1
  isConnected n₁ n₂ c h := by rw [h1, h2]; exact F.isConnected _ _ c h

end SockFollows

/-- `handleRequest` after the hook returned. -/
def hookReturned {ν : Type} (srv : Server ν υ) (w : World ν υ) (c : ConnId) (m : Msg) (r : υ × RequestOut) : Go (World ν υ) :=
  Webwire.runApis srv { w with user := r.1 } r.2.calls >>= fun w =>
  answerRequest srv w c (if r.2.closesMsg then m.close.1 else m) r.2 >>= fun w =>
  Webwire.deregisterHandler srv w c >>= fun w => .ok (releaseMsg w)

theorem handleRequest_hook {ν : Type} (srv : Server ν υ) (w : World ν υ) (c : ConnId) (m : Msg) :
    handleRequest srv w c m =
      hookReturned srv (w.log (.onRequest c m.ident (m.name.view m.buf) m.payload.encoding (m.payload.data.view m.buf))) c m
        (srv.hooks.onRequest w.user c m) := rfl

/-- With the same `OnRequest`, requests are handled in the same way. -/
theorem Mimics.sameRequests {ρ : ν₁ → ν₂ → Prop} {s₁ : Server ν₁ υ} {s₂ : Server ν₂ υ} (M : Mimics ρ s₁ s₂)
    (hr : s₂.hooks.onRequest = s₁.hooks.onRequest) (keep : Ev → Bool) (c : ConnId) : SameRequests ρ keep s₁ s₂ c := by
  intro w₁ w₂ m h _
  rw [handleRequest_hook, handleRequest_hook, hr, h.user]
  refine (M.runApis _ ((h.log _).withUser _)).bind fun a b hab => ?_
  have ha : ∀ m out, Follows (Alike ρ keep) (answerRequest s₁ a c m out) (answerRequest s₂ b c m out) := by
    intro m out
    unfold answerRequest
    cases out.err with
    | nil => exact M.fulfillMsg hab c _ _ _
    | _ => exact M.failMsg hab c _ _
  exact (ha _ _).bind fun _ _ hab => M.finalize hab c

end Webwire
