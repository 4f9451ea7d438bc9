import Verif.Proofs.Calls
import Verif.Proofs.Api
import Verif.Proofs.Handle

/-! Helper lemmas: servers on two networks that cannot be told apart do the same. -/

set_option autoImplicit false

namespace Webwire
open Spec

variable {ν₁ ν₂ υ : Type}

/-- Where `x` returns, `y` returns something related. -/
def Follows {α β : Type} (R : α → β → Prop) (x : Go α) (y : Go β) : Prop :=
  ∀ a, x = .ok a → ∃ b, y = .ok b ∧ R a b

theorem Follows.ok {α β : Type} {R : α → β → Prop} {a : α} {b : β} (h : R a b) : Follows R (.ok a) (.ok b) := by
  intro a' h'
  cases h'
  exact ⟨b, rfl, h⟩

theorem Follows.panic {α β : Type} {R : α → β → Prop} (s : String) (y : Go β) : Follows R (goPanic s) y := by
  intro a h; cases h

theorem Follows.block {α β : Type} {R : α → β → Prop} (s : String) (y : Go β) : Follows R (goBlock s) y := by
  intro a h; cases h

theorem Follows.bind {α β α' β' : Type} {R : α → β → Prop} {S : α' → β' → Prop} {x : Go α} {y : Go β}
    {f : α → Go α'} {g : β → Go β'} (h : Follows R x y) (hf : ∀ a b, R a b → Follows S (f a) (g b)) :
    Follows S (x >>= f) (y >>= g) := by
  intro c hc
  obtain ⟨a, ha, hc⟩ := bind_ok hc
  obtain ⟨b, rfl, hb⟩ := h a ha
  exact hf a b hb c hc

theorem Follows.mono {α β : Type} {R S : α → β → Prop} {x : Go α} {y : Go β} (h : Follows R x y)
    (hs : ∀ a b, R a b → S a b) : Follows S x y := by
  intro a ha
  obtain ⟨b, hb, hr⟩ := h a ha
  exact ⟨b, hb, hs a b hr⟩

theorem Follows.ite {α β : Type} {R : α → β → Prop} {p q : Prop} [Decidable p] [Decidable q] {x x' : Go α} {y y' : Go β}
    (h : p ↔ q) (h1 : Follows R x y) (h2 : Follows R x' y') : Follows R (if p then x else x') (if q then y else y') := by
  by_cases hp : p
  · rw [if_pos hp, if_pos (h.mp hp)]; exact h1
  · rw [if_neg hp, if_neg (mt h.mpr hp)]; exact h2

/-- Equal but for the network, which is related, and for some events. -/
structure Alike (ρ : ν₁ → ν₂ → Prop) (keep : Ev → Bool) (w₁ : World ν₁ υ) (w₂ : World ν₂ υ) : Prop where
  net : ρ w₁.net w₂.net
  user : w₁.user = w₂.user
  conns : w₁.conns = w₂.conns
  registry : w₁.registry = w₂.registry
  shutdown : w₁.shutdown = w₂.shutdown
  currentOps : w₁.currentOps = w₂.currentOps
  rdyClosed : w₁.rdyClosed = w₂.rdyClosed
  trace : w₁.trace.filter keep = w₂.trace.filter keep

/-- Get a writer and perform a call on it; the flag says whether there was a writer. -/
def sendOn {ν : Type} (s : Sockets ν) (n : ν) (c : ConnId) (f : Writer ν → ν → Go (ν × Option Err)) :
    Go (ν × Option Err × Bool) := do
  let (n, e) ← s.getWriter n c
  match e with
  | some e => return (n, some e, false)
  | none =>
    let (n, e) ← f (s.writer c) n
    return (n, e, true)

/-- The same result and related networks. -/
def SameResult {ρ : ν₁ → ν₂ → Prop} {α : Type} (a : ν₁ × α) (b : ν₂ × α) : Prop := ρ a.1 b.1 ∧ a.2 = b.2

/-- Two servers with the same options and hooks (other than `OnRequest`) on networks related by `ρ`. -/
structure Mimics (ρ : ν₁ → ν₂ → Prop) (s₁ : Server ν₁ υ) (s₂ : Server ν₂ υ) : Prop where
  hooks : ∃ f, s₂.hooks = { s₁.hooks with onRequest := f }
  sessionsEnabled : s₁.sessionsEnabled = s₂.sessionsEnabled
  maxConns : s₁.maxConns = s₂.maxConns
  bufferSize : s₁.bufferSize = s₂.bufferSize
  configMsg : s₁.configMsg = s₂.configMsg
  send : ∀ n₁ n₂ c (call : WriterCall), ¬ call.Panics → ρ n₁ n₂ →
    Follows (fun a b => ρ a.1 b.1 ∧ a.2 = b.2) (sendOn s₁.sock n₁ c fun wr s => call.run wr s)
      (sendOn s₂.sock n₂ c fun wr s => call.run wr s)
  conf : ∀ n₁ n₂ c bs, ρ n₁ n₂ →
    Follows (fun a b => ρ a.1 b.1 ∧ a.2 = b.2) (sendOn s₁.sock n₁ c fun wr s => writePart wr s bs fun s => wr.close s)
      (sendOn s₂.sock n₂ c fun wr s => writePart wr s bs fun s => wr.close s)
  close : ∀ n₁ n₂ c, ρ n₁ n₂ → Follows (fun a b => ρ a.1 b.1) (s₁.sock.close n₁ c) (s₂.sock.close n₂ c)
  isConnected : ∀ n₁ n₂ c, ρ n₁ n₂ → s₁.sock.isConnected n₁ c = s₂.sock.isConnected n₂ c

variable {ρ : ν₁ → ν₂ → Prop} {keep : Ev → Bool} {s₁ : Server ν₁ υ} {s₂ : Server ν₂ υ}

/-- Related worlds and equal results. -/
def AlikeR (ρ : ν₁ → ν₂ → Prop) (keep : Ev → Bool) {α : Type} (a : World ν₁ υ × α) (b : World ν₂ υ × α) : Prop :=
  Alike ρ keep a.1 b.1 ∧ a.2 = b.2

theorem Alike.cases {w₁ : World ν₁ υ} {w₂ : World ν₂ υ} (h : Alike ρ keep w₁ w₂) :
    w₂ = { net := w₂.net, user := w₁.user, conns := w₁.conns, registry := w₁.registry, shutdown := w₁.shutdown,
           currentOps := w₁.currentOps, rdyClosed := w₁.rdyClosed, trace := w₂.trace } := by
  obtain ⟨_, h1, h2, h3, h4, h5, h6, _⟩ := h
  cases w₂
  simp only at h1 h2 h3 h4 h5 h6 ⊢
  subst h1 h2 h3 h4 h5 h6
  rfl

theorem Alike.log {w₁ : World ν₁ υ} {w₂ : World ν₂ υ} (h : Alike ρ keep w₁ w₂) (e : Ev) :
    Alike ρ keep (w₁.log e) (w₂.log e) :=
  { h with trace := by simp [World.log, h.trace] }

theorem Alike.upd {w₁ : World ν₁ υ} {w₂ : World ν₂ υ} (h : Alike ρ keep w₁ w₂) (c : ConnId) (f : Conn → Conn) :
    Alike ρ keep (w₁.upd c f) (w₂.upd c f) :=
  { h with conns := by simp [World.upd, h.conns] }

theorem Alike.withUser {w₁ : World ν₁ υ} {w₂ : World ν₂ υ} (h : Alike ρ keep w₁ w₂) (u : υ) :
    Alike ρ keep { w₁ with user := u } { w₂ with user := u } := { h with user := rfl }

theorem Alike.withNet {w₁ : World ν₁ υ} {w₂ : World ν₂ υ} (h : Alike ρ keep w₁ w₂) {n₁ : ν₁} {n₂ : ν₂} (hn : ρ n₁ n₂) :
    Alike ρ keep { w₁ with net := n₁ } { w₂ with net := n₂ } := { h with net := hn }

theorem withWriter_sendOn {ν : Type} (srv : Server ν υ) (w : World ν υ) (c : ConnId) (f : Writer ν → ν → Go (ν × Option Err)) :
    withWriter srv w c f = (sendOn srv.sock w.net c f >>= fun r =>
      .ok (if r.2.2 then { w with net := r.1 }.log (.sent c) else { w with net := r.1 }, r.2.1)) := by
  unfold withWriter sendOn
  cases srv.sock.getWriter w.net c with
  | error e => rfl
  | ok a =>
    obtain ⟨n, e⟩ := a
    cases e with
    | some e => rfl
    | none =>
      show (f (srv.sock.writer c) n >>= _) = ((f (srv.sock.writer c) n >>= _) >>= _)
      cases f (srv.sock.writer c) n <;> rfl

theorem Alike.withWriter {w₁ : World ν₁ υ} {w₂ : World ν₂ υ} (h : Alike ρ keep w₁ w₂) (c : ConnId)
    {f : Writer ν₁ → ν₁ → Go (ν₁ × Option Err)} {g : Writer ν₂ → ν₂ → Go (ν₂ × Option Err)}
    (hs : Follows (fun a b => ρ a.1 b.1 ∧ a.2 = b.2) (sendOn s₁.sock w₁.net c f) (sendOn s₂.sock w₂.net c g)) :
    Follows (AlikeR ρ keep) (withWriter s₁ w₁ c f) (withWriter s₂ w₂ c g) := by
  rw [withWriter_sendOn, withWriter_sendOn]
  refine hs.bind fun a b hab => .ok ?_
  obtain ⟨n₁, e, d⟩ := a
  obtain ⟨n₂, e', d'⟩ := b
  obtain ⟨hn, he⟩ := hab
  cases he
  refine ⟨?_, rfl⟩
  cases d with
  | false => exact h.withNet hn
  | true => exact (h.withNet hn).log _

/-- The end of `deregister`. -/
private def hookEnded {ν : Type} (w : World ν υ) (key : Bytes) (n : Int) (r : υ × HookEnd) : Go (World ν υ × Int) :=
  match r.2 with
  | .returned _ => .ok ({ w with user := r.1 }.log (.onSessionClosed key), n)
  | .panicked _ => goPanic "nil pointer dereference in recovery from session closure hook panic"

namespace Mimics

variable (M : Mimics ρ s₁ s₂)
include M

theorem noWriter {n₁ n₁' : ν₁} {n₂ : ν₂} (c : ConnId) (h : ρ n₁ n₂) {e : Err}
    (hg : s₁.sock.getWriter n₁ c = .ok (n₁', some e)) : ∃ n₂', s₂.sock.getWriter n₂ c = .ok (n₂', some e) ∧ ρ n₁' n₂' := by
  have hs := M.send _ _ c .sessionClosed (by simp [WriterCall.Panics]) h (n₁', some e, false)
    (by unfold sendOn; rw [hg]; rfl)
  obtain ⟨⟨n₂', _, _⟩, hb, hr, he⟩ := hs
  cases he
  unfold sendOn at hb
  obtain ⟨⟨n, er⟩, h1, hb⟩ := bind_ok hb
  cases er with
  | none =>
    obtain ⟨⟨n, er⟩, h2, hb⟩ := bind_ok hb
    simp [pure, Except.pure] at hb
  | some er =>
    simp only [pure, Except.pure, Except.ok.injEq, Prod.mk.injEq, Option.some.injEq, and_true] at hb
    obtain ⟨rfl, rfl⟩ := hb
    exact ⟨_, h1, hr⟩

theorem call {w₁ : World ν₁ υ} {w₂ : World ν₂ υ} (h : Alike ρ keep w₁ w₂) (c : ConnId) (call : WriterCall) (hp : ¬ call.Panics) :
    Follows (AlikeR ρ keep) (withWriter s₁ w₁ c fun wr s => call.run wr s) (withWriter s₂ w₂ c fun wr s => call.run wr s) :=
  h.withWriter c (M.send _ _ c call hp h.net)

theorem register {w₁ : World ν₁ υ} {w₂ : World ν₂ υ} (h : Alike ρ keep w₁ w₂) (c : ConnId) :
    Follows (AlikeR ρ keep) (register s₁ w₁ c) (register s₂ w₂ c) := by
  have e1 : (w₂.conns c).session = (w₁.conns c).session := by rw [h.conns]
  unfold Webwire.register
  rw [e1]
  cases (w₁.conns c).session with
  | none => exact .panic _ _
  | some s =>
    have e2 : registryAdd s₂.maxConns w₂.registry s.key c = registryAdd s₁.maxConns w₁.registry s.key c := by
      rw [h.registry, M.maxConns]
    simp only
    rw [e2]
    exact .ok ⟨{ h with registry := rfl }, rfl⟩

omit M in
/-- sessionRegistry.go:84-97, the hook has been called. -/
private theorem deregister_eq {ν : Type} (srv : Server ν υ) (w : World ν υ) (c : ConnId) (d : Bool) :
    Webwire.deregister srv w c d = match (w.conns c).session with
      | none => .ok (w, -1)
      | some s =>
        if (registryRemove w.registry s.key c).2.2 ∧ d then
          hookEnded { w with registry := (registryRemove w.registry s.key c).1 } s.key (registryRemove w.registry s.key c).2.1
            (srv.hooks.onSessionClosed w.user s.key)
        else .ok ({ w with registry := (registryRemove w.registry s.key c).1 }, (registryRemove w.registry s.key c).2.1) := rfl

theorem deregister {w₁ : World ν₁ υ} {w₂ : World ν₂ υ} (h : Alike ρ keep w₁ w₂) (c : ConnId) (d : Bool) :
    Follows (AlikeR ρ keep) (deregister s₁ w₁ c d) (deregister s₂ w₂ c d) := by
  obtain ⟨f, hh⟩ := M.hooks
  have e1 : (w₂.conns c).session = (w₁.conns c).session := by rw [h.conns]
  rw [deregister_eq, deregister_eq, e1]
  cases (w₁.conns c).session with
  | none => exact .ok ⟨h, rfl⟩
  | some s =>
    have e2 : registryRemove w₂.registry s.key c = registryRemove w₁.registry s.key c := by rw [h.registry]
    have e3 : s₂.hooks.onSessionClosed w₂.user s.key = s₁.hooks.onSessionClosed w₁.user s.key := by rw [hh, h.user]
    simp only
    rw [e2, e3]
    have h2 : ∀ r, Alike ρ keep { w₁ with registry := r } { w₂ with registry := r } := fun r => { h with registry := rfl }
    split_ifs
    · obtain ⟨u, he⟩ := s₁.hooks.onSessionClosed w₁.user s.key
      cases he with
      | panicked _ => exact .panic _ _
      | returned _ => exact .ok ⟨((h2 _).withUser _).log _, rfl⟩
    · exact .ok ⟨h2 _, rfl⟩

theorem unlink {w₁ : World ν₁ υ} {w₂ : World ν₂ υ} (h : Alike ρ keep w₁ w₂) (c : ConnId) :
    Follows (Alike ρ keep) (unlink s₁ w₁ c) (unlink s₂ w₂ c) := by
  unfold Webwire.unlink
  refine (M.deregister h c false).bind ?_
  rintro ⟨w₁, _⟩ ⟨w₂, _⟩ ⟨h, rfl⟩
  have h2 : Alike ρ keep (setSession w₁ c none) (setSession w₂ c none) := h.upd c _
  refine (M.close _ _ c h2.net).bind ?_
  rintro ⟨n₁, _⟩ ⟨n₂, _⟩ hn
  exact .ok ((h2.withNet hn).log _)

theorem connClose {w₁ : World ν₁ υ} {w₂ : World ν₂ υ} (h : Alike ρ keep w₁ w₂) (c : ConnId) :
    Follows (Alike ρ keep) (connClose s₁ w₁ c) (connClose s₂ w₂ c) := by
  have e1 : (w₂.conns c).isActive = (w₁.conns c).isActive := by rw [h.conns]
  unfold Webwire.connClose
  rw [e1]
  have h2 := h.upd c fun con => { con with isActive := false }
  split_ifs
  · exact .ok h
  · simp only
    have e2 := congrArg (fun f => (f c).tasks) h2.conns
    rw [← e2]
    split_ifs
    · exact M.unlink h2 c
    · exact .ok h2

theorem deregisterTask {w₁ : World ν₁ υ} {w₂ : World ν₂ υ} (h : Alike ρ keep w₁ w₂) (c : ConnId) :
    Follows (Alike ρ keep) (deregisterTask s₁ w₁ c) (deregisterTask s₂ w₂ c) := by
  unfold Webwire.deregisterTask
  have h2 := h.upd c fun con => { con with tasks := con.tasks - 1 }
  simp only
  have e1 := congrArg (fun f => (f c).tasks) h2.conns
  have e2 := congrArg (fun f => (f c).isActive) h2.conns
  rw [← e1, ← e2]
  split_ifs
  · exact M.unlink h2 c
  · exact .ok h2

theorem signal {w₁ : World ν₁ υ} {w₂ : World ν₂ υ} (h : Alike ρ keep w₁ w₂) (c : ConnId) (name : Bytes) (enc : Encoding)
    (payload : Bytes) : Follows (AlikeR ρ keep) (signal s₁ w₁ c name enc payload) (signal s₂ w₂ c name enc payload) := by
  unfold Webwire.signal
  rw [← M.bufferSize]
  split_ifs
  · exact .ok ⟨h, rfl⟩
  · exact .ok ⟨h, rfl⟩
  · exact M.call h c (.signal name enc payload true) (by simp [WriterCall.Panics])

theorem notifySessionCreated {w₁ : World ν₁ υ} {w₂ : World ν₂ υ} (h : Alike ρ keep w₁ w₂) (c : ConnId) (s : Session) :
    Follows (AlikeR ρ keep) (notifySessionCreated s₁ w₁ c s) (notifySessionCreated s₂ w₂ c s) := by
  obtain ⟨f, hh⟩ := M.hooks
  unfold Webwire.notifySessionCreated
  rw [hh]
  cases s₁.hooks.marshal s with
  | error e => exact .ok ⟨h, rfl⟩
  | ok bs => exact M.call h c (.sessionCreated bs) (by simp [WriterCall.Panics])

theorem createSession {w₁ : World ν₁ υ} {w₂ : World ν₂ υ} (h : Alike ρ keep w₁ w₂) (c : ConnId) (info : Option Nat) :
    Follows (AlikeR ρ keep) (createSession s₁ w₁ c info) (createSession s₂ w₂ c info) := by
  obtain ⟨f, hh⟩ := M.hooks
  unfold Webwire.createSession
  have e1 : (w₂.conns c).session = (w₁.conns c).session := by rw [h.conns]
  have hn : newSession s₂.hooks w₂.user info = newSession s₁.hooks w₁.user info := by rw [hh, h.user]; rfl
  rw [← M.sessionsEnabled, ← M.isConnected _ _ c h.net, e1, hn]
  split_ifs
  · exact .ok ⟨h, rfl⟩
  · exact .ok ⟨h, rfl⟩
  · cases (w₁.conns c).session with
    | some _ => exact .ok ⟨h, rfl⟩
    | none =>
      simp only
      cases newSession s₁.hooks w₁.user info with
      | error e => intro a ha; cases ha
      | ok us =>
        obtain ⟨u, s⟩ := us
        refine (M.notifySessionCreated (h.withUser u) c s).bind ?_
        rintro ⟨w₁, e⟩ ⟨w₂, e'⟩ ⟨h, he⟩
        simp only at he
        subst he
        cases e with
        | some e => exact .ok ⟨h, rfl⟩
        | none =>
          have h2 : Alike ρ keep (setSession w₁ c (some s)) (setSession w₂ c (some s)) := h.upd c _
          refine (M.register h2 c).bind ?_
          rintro ⟨w₁, _⟩ ⟨w₂, _⟩ ⟨h, rfl⟩
          have e2 : s₂.hooks.onSessionCreated w₂.user c s = s₁.hooks.onSessionCreated w₁.user c s := by rw [hh, ← h.user]
          simp only [e2]
          exact .ok ⟨(h.withUser _).log _, rfl⟩

theorem closeSession {w₁ : World ν₁ υ} {w₂ : World ν₂ υ} (h : Alike ρ keep w₁ w₂) (c : ConnId) :
    Follows (AlikeR ρ keep) (closeSession s₁ w₁ c) (closeSession s₂ w₂ c) := by
  unfold Webwire.closeSession
  have e1 : (w₂.conns c).session = (w₁.conns c).session := by rw [h.conns]
  rw [← M.sessionsEnabled, e1]
  split_ifs
  · exact .ok ⟨h, rfl⟩
  · cases (w₁.conns c).session with
    | none => exact .ok ⟨h, rfl⟩
    | some s =>
      refine (M.deregister h c true).bind ?_
      rintro ⟨w₁, _⟩ ⟨w₂, _⟩ ⟨h, rfl⟩
      exact M.call (h.upd c _) c .sessionClosed (by simp [WriterCall.Panics])

theorem closeSessions (cs : List ConnId) : ∀ {w₁ : World ν₁ υ} {w₂ : World ν₂ υ}, Alike ρ keep w₁ w₂ →
    Follows (AlikeR ρ keep) (closeSessions s₁ w₁ cs) (closeSessions s₂ w₂ cs) := by
  induction cs with
  | nil => exact fun h => .ok ⟨h, rfl⟩
  | cons c cs ih =>
    intro w₁ w₂ h
    unfold Webwire.closeSessions
    refine (M.closeSession h c).bind ?_
    rintro ⟨w₁, _⟩ ⟨w₂, _⟩ ⟨h, rfl⟩
    refine (ih h).bind ?_
    rintro ⟨w₁, _⟩ ⟨w₂, _⟩ ⟨h, rfl⟩
    exact .ok ⟨h, rfl⟩

theorem srvCloseSession {w₁ : World ν₁ υ} {w₂ : World ν₂ υ} (h : Alike ρ keep w₁ w₂) (key : Bytes) (order : List ConnId) :
    Follows (AlikeR ρ keep) (srvCloseSession s₁ w₁ key order) (srvCloseSession s₂ w₂ key order) := by
  unfold Webwire.srvCloseSession sessionConnections
  rw [← h.registry]
  cases w₁.registry.get key with
  | none => exact .ok ⟨h, rfl⟩
  | some set =>
    refine (M.closeSessions _ h).bind ?_
    rintro ⟨w₁, _⟩ ⟨w₂, _⟩ ⟨h, rfl⟩
    exact .ok ⟨h, rfl⟩

theorem runApi {w₁ : World ν₁ υ} {w₂ : World ν₂ υ} (h : Alike ρ keep w₁ w₂) (a : ApiCall) :
    Follows (Alike ρ keep) (runApi s₁ w₁ a) (runApi s₂ w₂ a) := by
  cases a with
  | signal c n e p => exact (M.signal h c n e p).bind fun a b hab => .ok hab.1
  | createSession c i => exact (M.createSession h c i).bind fun a b hab => .ok hab.1
  | closeSession c => exact (M.closeSession h c).bind fun a b hab => .ok hab.1
  | close c => exact M.connClose h c
  | srvCloseSession k o => exact (M.srvCloseSession h k o).bind fun a b hab => .ok hab.1

theorem runApis (as : List ApiCall) : ∀ {w₁ : World ν₁ υ} {w₂ : World ν₂ υ}, Alike ρ keep w₁ w₂ →
    Follows (Alike ρ keep) (runApis s₁ w₁ as) (runApis s₂ w₂ as) := by
  induction as with
  | nil => exact fun h => .ok h
  | cons a as ih => exact fun h => (M.runApi h a).bind fun _ _ h => ih h

theorem fulfillMsg {w₁ : World ν₁ υ} {w₂ : World ν₂ υ} (h : Alike ρ keep w₁ w₂) (c : ConnId) (m : Msg) (enc : Encoding)
    (payload : Bytes) : Follows (Alike ρ keep) (fulfillMsg s₁ w₁ c m enc payload) (fulfillMsg s₂ w₂ c m enc payload) :=
  (M.call h c (.reply m.identifierBytes enc payload) (by simp [WriterCall.Panics])).bind fun _ _ hab => .ok hab.1

theorem failMsg {w₁ : World ν₁ υ} {w₂ : World ν₂ υ} (h : Alike ρ keep w₁ w₂) (c : ConnId) (m : Msg) (e : ReplyErr) :
    Follows (Alike ρ keep) (failMsg s₁ w₁ c m e) (failMsg s₂ w₂ c m e) := by
  have sp : ∀ t, Follows (Alike ρ keep)
      (do let (w, _) ← Webwire.withWriter s₁ w₁ c fun wr s => writeMsgSpecialRequestReply wr s t m.identifierBytes
          return w : Go (World ν₁ υ))
      (do let (w, _) ← Webwire.withWriter s₂ w₂ c fun wr s => writeMsgSpecialRequestReply wr s t m.identifierBytes
          return w : Go (World ν₂ υ)) := fun t =>
    (M.call h c (.special t m.identifierBytes) (by simp [WriterCall.Panics])).bind fun _ _ hab => .ok hab.1
  have er : ∀ code text, Follows (Alike ρ keep)
      (do let (w, _) ← Webwire.withWriter s₁ w₁ c fun wr s => writeMsgReplyError wr s m.identifierBytes code text true
          return w : Go (World ν₁ υ))
      (do let (w, _) ← Webwire.withWriter s₂ w₂ c fun wr s => writeMsgReplyError wr s m.identifierBytes code text true
          return w : Go (World ν₂ υ)) := fun code text =>
    (M.call h c (.errorReply m.identifierBytes code text true) (by simp [WriterCall.Panics])).bind fun _ _ hab => .ok hab.1
  unfold Webwire.failMsg
  split_ifs
  · exact .ok h
  · cases e with
    | nil => exact sp _
    | request code text => exact er _ _
    | requestPtr p =>
      cases p with
      | some p => exact er _ _
      | none =>
        -- without a writer nothing is dereferenced
        refine Follows.bind (R := AlikeR ρ keep) ?_ fun _ _ _ => .ok h
        intro a ha
        obtain ⟨a, ae⟩ := a
        rcases withWriter_ok ha with ⟨n, e, hg, rfl, he⟩ | ⟨n, n', _, hf, _⟩
        · obtain ⟨n', hn, hr⟩ := M.noWriter c h.net hg
          refine ⟨({ w₂ with net := n' }, some e), ?_, h.withNet hr, he⟩
          unfold Webwire.withWriter
          rw [hn]
          rfl
        · cases hf
    | maxSessConnsReached => exact sp _
    | sessionNotFound => exact sp _
    | sessionsDisabled => exact sp _
    | other _ => exact sp _

theorem failMsgShutdown {w₁ : World ν₁ υ} {w₂ : World ν₂ υ} (h : Alike ρ keep w₁ w₂) (c : ConnId) (m : Msg) :
    Follows (Alike ρ keep) (failMsgShutdown s₁ w₁ c m) (failMsgShutdown s₂ w₂ c m) := by
  have sh : ∀ {ν : Type} (s : Server ν υ) (w w' : World ν υ), Webwire.failMsgShutdown s w c m = .ok w' ↔
      ∃ n e, sendOn s.sock w.net c (fun wr st => WriterCall.run wr st (.special MsgReplyShutdown m.identifierBytes)) =
        .ok (n, e, true) ∧ w' = { w with net := n }.log (.sent c) := by
    intro ν s w w'
    unfold Webwire.failMsgShutdown sendOn
    cases s.sock.getWriter w.net c with
    | error e => constructor <;> intro h <;> [cases h; (obtain ⟨_, _, h, _⟩ := h; cases h)]
    | ok a =>
      obtain ⟨n, e⟩ := a
      cases e with
      | some e =>
        constructor
        · intro h; cases h
        · rintro ⟨_, _, h, _⟩
          simp [bind, Except.bind, pure, Except.pure] at h
      | none =>
        simp only [bind, Except.bind, WriterCall.run]
        cases writeMsgSpecialRequestReply (s.sock.writer c) n MsgReplyShutdown m.identifierBytes with
        | error e => constructor <;> intro h <;> [cases h; (obtain ⟨_, _, h, _⟩ := h; cases h)]
        | ok a =>
          obtain ⟨n', e'⟩ := a
          simp only [pure, Except.pure, Except.ok.injEq, Prod.mk.injEq, and_true]
          constructor
          · rintro rfl; exact ⟨n', e', ⟨rfl, rfl⟩, rfl⟩
          · rintro ⟨_, _, ⟨rfl, rfl⟩, rfl⟩; rfl
  intro w' hw
  obtain ⟨n, e, hs, rfl⟩ := (sh _ _ _).mp hw
  obtain ⟨⟨n₂, e₂, d⟩, hb, hr, he⟩ := M.send _ _ c _ (by simp [WriterCall.Panics]) h.net _ hs
  cases he
  exact ⟨_, (sh _ _ _).mpr ⟨_, _, hb, rfl⟩, (h.withNet hr).log _⟩

theorem registerHandler {w₁ : World ν₁ υ} {w₂ : World ν₂ υ} (h : Alike ρ keep w₁ w₂) (c : ConnId) (m : Msg) :
    Follows (AlikeR ρ keep) (registerHandler s₁ w₁ c m) (registerHandler s₂ w₂ c m) := by
  have e1 : w₂.conns c = w₁.conns c := by rw [h.conns]
  unfold Webwire.registerHandler
  rw [e1]
  dsimp only
  have h2 : ∀ f, Alike ρ keep { w₁.upd c f with currentOps := if w₁.shutdown then w₁.currentOps else w₁.currentOps + 1 }
      { w₂.upd c f with currentOps := if w₂.shutdown then w₂.currentOps else w₂.currentOps + 1 } := fun f =>
    { h.upd c f with
      currentOps := by show (if _ then _ else _) = (if _ then _ else _); rw [h.shutdown, h.currentOps] }
  have h3 := h2 fun con => { con with slots := if decide ((w₁.conns c).limit > 1) then con.slots + 1 else con.slots }
  refine .ite Iff.rfl (.ok ⟨h, rfl⟩) (.ite Iff.rfl (.block _ _) (.ite ?_ ?_
    (.ok ⟨h3.upd c fun con => { con with tasks := con.tasks + 1 }, rfl⟩)))
  · show (w₁.shutdown = true ∧ _) ↔ (w₂.shutdown = true ∧ _)
    rw [h.shutdown]
  · exact (M.failMsgShutdown h3 c m).bind fun a b hab => .ok ⟨hab, rfl⟩

theorem deregisterHandler {w₁ : World ν₁ υ} {w₂ : World ν₂ υ} (h : Alike ρ keep w₁ w₂) (c : ConnId) :
    Follows (Alike ρ keep) (deregisterHandler s₁ w₁ c) (deregisterHandler s₂ w₂ c) := by
  unfold Webwire.deregisterHandler
  have hc : decide (w₂.shutdown = true ∧ w₂.currentOps - 1 < 1) = decide (w₁.shutdown = true ∧ w₁.currentOps - 1 < 1) := by
    rw [h.shutdown, h.currentOps]
  dsimp only
  refine .ite (by rw [hc, h.rdyClosed]) (.panic _ _) ?_
  refine (M.deregisterTask (keep := keep) ?_ c).bind fun a b hab => ?_
  · exact { h with currentOps := by show _ - _ = _ - _; rw [h.currentOps],
                   rdyClosed := by show (if _ then _ else _) = (if _ then _ else _); rw [hc, h.rdyClosed] }
  · have e1 : b.conns c = a.conns c := by rw [hab.conns]
    rw [e1]
    exact .ite Iff.rfl (.panic _ _) (.ok (hab.upd c _))

theorem finalize {w₁ : World ν₁ υ} {w₂ : World ν₂ υ} (h : Alike ρ keep w₁ w₂) (c : ConnId) :
    Follows (Alike ρ keep) (Webwire.deregisterHandler s₁ w₁ c >>= fun w => .ok (releaseMsg w))
      (Webwire.deregisterHandler s₂ w₂ c >>= fun w => .ok (releaseMsg w)) :=
  (M.deregisterHandler h c).bind fun _ _ hab => .ok (hab.log _)

theorem handleSignal {w₁ : World ν₁ υ} {w₂ : World ν₂ υ} (h : Alike ρ keep w₁ w₂) (c : ConnId) (m : Msg) :
    Follows (Alike ρ keep) (handleSignal s₁ w₁ c m) (handleSignal s₂ w₂ c m) := by
  obtain ⟨f, hh⟩ := M.hooks
  unfold Webwire.handleSignal
  have e : s₂.hooks.onSignal w₂.user c m = s₁.hooks.onSignal w₁.user c m := by rw [hh, h.user]
  show Follows _ (Webwire.runApis s₁ { w₁.log _ with user := (s₁.hooks.onSignal w₁.user c m).1 }
      (s₁.hooks.onSignal w₁.user c m).2 >>= _)
    (Webwire.runApis s₂ { w₂.log _ with user := (s₂.hooks.onSignal w₂.user c m).1 }
      (s₂.hooks.onSignal w₂.user c m).2 >>= _)
  rw [e]
  exact (M.runApis _ ((h.log _).withUser _)).bind fun _ _ hab => M.finalize hab c

theorem handleSessionClosure {w₁ : World ν₁ υ} {w₂ : World ν₂ υ} (h : Alike ρ keep w₁ w₂) (c : ConnId) (m : Msg) :
    Follows (Alike ρ keep) (handleSessionClosure s₁ w₁ c m) (handleSessionClosure s₂ w₂ c m) := by
  unfold Webwire.handleSessionClosure
  rw [← M.sessionsEnabled]
  refine .ite Iff.rfl ((M.failMsg h c m _).bind fun _ _ hab => M.finalize hab c)
    (.ite (by rw [h.conns]) ((M.fulfillMsg h c m _ _).bind fun _ _ hab => M.finalize hab c) ?_)
  refine (M.deregister h c true).bind fun a b hab => ?_
  exact (M.fulfillMsg (hab.1.upd c _) c m _ _).bind fun _ _ hab => M.finalize hab c

theorem handleSessionRestore {w₁ : World ν₁ υ} {w₂ : World ν₂ υ} (h : Alike ρ keep w₁ w₂) (c : ConnId) (m : Msg) :
    Follows (Alike ρ keep) (handleSessionRestore s₁ w₁ c m) (handleSessionRestore s₂ w₂ c m) := by
  obtain ⟨f, hh⟩ := M.hooks
  have e1 : ∀ k, sessionConnectionsNum w₂ k = sessionConnectionsNum w₁ k := by
    intro k; unfold sessionConnectionsNum; rw [h.registry]
  have e2 : ∀ k, s₂.hooks.onSessionLookup w₂.user k = s₁.hooks.onSessionLookup w₁.user k := by intro k; rw [hh, h.user]
  have fail : ∀ {w₁ : World ν₁ υ} {w₂ : World ν₂ υ} (e : ReplyErr), Alike ρ keep w₁ w₂ → Follows (Alike ρ keep)
      (Webwire.failMsg s₁ w₁ c m e >>= fun w => Webwire.deregisterHandler s₁ w c >>= fun w => .ok (releaseMsg w))
      (Webwire.failMsg s₂ w₂ c m e >>= fun w => Webwire.deregisterHandler s₂ w c >>= fun w => .ok (releaseMsg w)) :=
    fun e h => (M.failMsg h c m e).bind fun _ _ hab => M.finalize hab c
  unfold Webwire.handleSessionRestore
  rw [← M.sessionsEnabled, ← M.maxConns]
  refine .ite Iff.rfl (fail _ h) (.ite (by rw [e1]) (fail _ h) ?_)
  rw [e2]
  have h2 := (h.withUser (s₁.hooks.onSessionLookup w₁.user (m.payload.data.view m.buf)).1).log
    (.onSessionLookup (m.payload.data.view m.buf))
  cases hl : s₁.hooks.onSessionLookup w₁.user (m.payload.data.view m.buf) with
  | mk u r =>
  rw [hl] at h2
  cases r with
  | error e => exact fail _ h2
  | ok r =>
    cases r with
    | none => exact fail _ h2
    | some r =>
      have e3 : ∀ s, s₂.hooks.marshal s = s₁.hooks.marshal s := by intro s; rw [hh]
      have e4 : s₂.hooks.infoParser = s₁.hooks.infoParser := by rw [hh]
      simp only
      rw [e3, e4]
      cases s₁.hooks.marshal _ with
      | error e => exact fail _ h2
      | ok bs =>
        refine (M.register (h2.upd c _) c).bind ?_
        rintro ⟨w₁, e⟩ ⟨w₂, e'⟩ ⟨h, he⟩
        cases he
        cases e with
        | some e => exact .panic _ _
        | none => exact (M.fulfillMsg h c m _ _).bind fun _ _ hab => M.finalize hab c

/-- `OnRequest` and what follows it does the same on both servers. -/
def _root_.Webwire.SameRequests (ρ : ν₁ → ν₂ → Prop) (keep : Ev → Bool) (s₁ : Server ν₁ υ) (s₂ : Server ν₂ υ) (c : ConnId) : Prop :=
  ∀ {w₁ : World ν₁ υ} {w₂ : World ν₂ υ} (m : Msg), Alike ρ keep w₁ w₂ → m.requiresReply = true →
    Follows (Alike ρ keep) (handleRequest s₁ w₁ c m) (handleRequest s₂ w₂ c m)

theorem handleMessage {c : ConnId} (hq : SameRequests ρ keep s₁ s₂ c) {w₁ : World ν₁ υ} {w₂ : World ν₂ υ}
    (h : Alike ρ keep w₁ w₂) (m : Msg) :
    Follows (Alike ρ keep) (handleMessage s₁ w₁ c m) (handleMessage s₂ w₂ c m) := by
  unfold Webwire.handleMessage
  refine .ite Iff.rfl (.ok (h.log _)) ?_
  refine (M.registerHandler h c m).bind ?_
  rintro ⟨w₁, ok⟩ ⟨w₂, ok'⟩ ⟨h, he⟩
  cases he
  simp only
  refine .ite Iff.rfl (.ok (h.log _)) (.ite Iff.rfl (M.handleSignal h c m) ?_)
  by_cases ht : m.msgType = MsgRequestBinary ∨ m.msgType = MsgRequestUtf8 ∨ m.msgType = MsgRequestUtf16
  · rw [if_pos ht, if_pos ht]
    refine hq m h ?_
    unfold Msg.requiresReply
    rcases ht with ht | ht | ht <;> rw [ht] <;> rfl
  · rw [if_neg ht, if_neg ht]
    exact .ite Iff.rfl (M.handleSessionRestore h c m) (.ite Iff.rfl (M.handleSessionClosure h c m) (M.finalize h c))

theorem disconnect {w₁ : World ν₁ υ} {w₂ : World ν₂ υ} (h : Alike ρ keep w₁ w₂) (c : ConnId) :
    Follows (Alike ρ keep) (disconnect s₁ w₁ c) (disconnect s₂ w₂ c) := by
  obtain ⟨f, hh⟩ := M.hooks
  unfold Webwire.disconnect
  refine (M.connClose (h.log _) c).bind fun a b hab => ?_
  have e : s₂.hooks.onClientDisconnected b.user c = s₁.hooks.onClientDisconnected a.user c := by rw [hh, hab.user]
  show Follows _ (Webwire.runApis s₁ { a.log _ with user := (s₁.hooks.onClientDisconnected a.user c).1 }
      (s₁.hooks.onClientDisconnected a.user c).2)
    (Webwire.runApis s₂ { b.log _ with user := (s₂.hooks.onClientDisconnected b.user c).1 }
      (s₂.hooks.onClientDisconnected b.user c).2)
  rw [e]
  exact M.runApis _ ((hab.log _).withUser _)

theorem serve {c : ConnId} (hq : SameRequests ρ keep s₁ s₂ c) (input : List Incoming) : ∀ {w₁ : World ν₁ υ} {w₂ : World ν₂ υ},
    Alike ρ keep w₁ w₂ → Follows (Alike ρ keep) (serve s₁ w₁ c input) (serve s₂ w₂ c input) := by
  induction input with
  | nil => exact fun h => .ok h
  | cons i rest ih =>
    intro w₁ w₂ h
    cases i with
    | failed b => exact M.disconnect h c
    | data bs =>
      unfold Webwire.serve
      rw [← M.bufferSize]
      cases (newMessage s₁.bufferSize.toNat).readBytes bs with
      | error e => intro a ha; cases ha
      | ok r => exact .ite Iff.rfl (M.disconnect h c) ((M.handleMessage hq h _).bind fun _ _ hab => ih hab)

theorem handleConnection {c : ConnId} (hq : SameRequests ρ keep s₁ s₂ c) (limit : Int) (input : List Incoming)
    {w₁ : World ν₁ υ} {w₂ : World ν₂ υ} (h : Alike ρ keep w₁ w₂) :
    Follows (Alike ρ keep) (handleConnection s₁ w₁ c limit input) (handleConnection s₂ w₂ c limit input) := by
  obtain ⟨f, hh⟩ := M.hooks
  unfold Webwire.handleConnection writeConfMessage
  rw [← M.configMsg]
  refine (h.withWriter c (M.conf _ _ c _ h.net)).bind ?_
  rintro ⟨a, e⟩ ⟨b, e'⟩ ⟨hab, he⟩
  cases he
  cases e with
  | some e =>
    refine (M.close _ _ c hab.net).bind ?_
    rintro ⟨n₁, _⟩ ⟨n₂, _⟩ hn
    exact .ok ((hab.withNet hn).log _)
  | none =>
    have e : s₂.hooks.onClientConnected b.user c = s₁.hooks.onClientConnected a.user c := by
      simp only at hab
      rw [hh, hab.user]
    show Follows _ (Webwire.runApis s₁ { (a.upd c _).log _ with user := (s₁.hooks.onClientConnected a.user c).1 }
        (s₁.hooks.onClientConnected a.user c).2 >>= _)
      (Webwire.runApis s₂ { (b.upd c _).log _ with user := (s₂.hooks.onClientConnected b.user c).1 }
        (s₂.hooks.onClientConnected b.user c).2 >>= _)
    rw [e]
    exact (M.runApis _ (((hab.upd c _).log _).withUser _)).bind fun _ _ hab => M.serve hq input hab

end Mimics

end Webwire
