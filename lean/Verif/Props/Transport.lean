import Verif.Proofs.Simulate2
import Verif.Props.Reply
import Verif.Props.Pool

/-!
# Transports are exchangeable (C100); what a handler that closes its message disturbs (C60)
-/

set_option autoImplicit false

namespace Webwire
open Spec

variable {ν₁ ν₂ υ : Type}

namespace Spec

/-- Two socket operations end alike: both return the same result (and leave related networks), or neither returns. -/
inductive SameOutcome {α : Type} (ρ : ν₁ → ν₂ → Prop) : Go (ν₁ × α) → Go (ν₂ × α) → Prop
  | returns {n₁ n₂ a} : ρ n₁ n₂ → SameOutcome ρ (.ok (n₁, a)) (.ok (n₂, a))
  | stops {e e'} : SameOutcome ρ (.error e) (.error e')

/-- `ρ` says which states of two transports look the same: there every operation of the `Socket` interface and of its
writers ends alike. -/
structure Indistinguishable (ρ : ν₁ → ν₂ → Prop) (s₁ : Sockets ν₁) (s₂ : Sockets ν₂) : Prop where
  getWriter : ∀ n₁ n₂ c, ρ n₁ n₂ → SameOutcome ρ (s₁.getWriter n₁ c) (s₂.getWriter n₂ c)
  write : ∀ n₁ n₂ c b, ρ n₁ n₂ → SameOutcome ρ ((s₁.writer c).write n₁ b) ((s₂.writer c).write n₂ b)
  flush : ∀ n₁ n₂ c, ρ n₁ n₂ → SameOutcome ρ ((s₁.writer c).close n₁) ((s₂.writer c).close n₂)
  close : ∀ n₁ n₂ c, ρ n₁ n₂ → SameOutcome ρ (s₁.close n₁ c) (s₂.close n₂ c)
  isConnected : ∀ n₁ n₂ c, ρ n₁ n₂ → s₁.isConnected n₁ c = s₂.isConnected n₂ c

/-- Servers with the same hooks and options. -/
structure SameServer (s₁ : Server ν₁ υ) (s₂ : Server ν₂ υ) : Prop where
  hooks : s₁.hooks = s₂.hooks
  sessionsEnabled : s₁.sessionsEnabled = s₂.sessionsEnabled
  maxConns : s₁.maxConns = s₂.maxConns
  bufferSize : s₁.bufferSize = s₂.bufferSize
  configMsg : s₁.configMsg = s₂.configMsg

/-- The networks look the same, everything else is the same: the user's state, the connections, the sessions, the
counters, and which hooks were called with which arguments in which order. -/
structure SameWorld (ρ : ν₁ → ν₂ → Prop) (w₁ : World ν₁ υ) (w₂ : World ν₂ υ) : Prop where
  net : ρ w₁.net w₂.net
  user : w₁.user = w₂.user
  conns : w₁.conns = w₂.conns
  registry : w₁.registry = w₂.registry
  shutdown : w₁.shutdown = w₂.shutdown
  currentOps : w₁.currentOps = w₂.currentOps
  rdyClosed : w₁.rdyClosed = w₂.rdyClosed
  trace : w₁.trace = w₂.trace

/-- Both return, with the same world, or neither does. -/
def SameEnd (ρ : ν₁ → ν₂ → Prop) (x : Go (World ν₁ υ)) (y : Go (World ν₂ υ)) : Prop :=
  (∀ w₁, x = .ok w₁ → ∃ w₂, y = .ok w₂ ∧ SameWorld ρ w₁ w₂) ∧ (∀ w₂, y = .ok w₂ → ∃ w₁, x = .ok w₁ ∧ SameWorld ρ w₁ w₂)

end Spec

private theorem outcome_follows {α : Type} {ρ : ν₁ → ν₂ → Prop} {x : Go (ν₁ × α)} {y : Go (ν₂ × α)} (h : SameOutcome ρ x y) :
    Follows (fun a b => ρ a.1 b.1 ∧ a.2 = b.2) x y := by
  cases h with
  | returns h => exact .ok ⟨h, rfl⟩
  | stops => intro a ha; cases ha

private theorem outcome_symm {α : Type} {ρ : ν₁ → ν₂ → Prop} {x : Go (ν₁ × α)} {y : Go (ν₂ × α)} (h : SameOutcome ρ x y) :
    SameOutcome (fun n₂ n₁ => ρ n₁ n₂) y x := by
  cases h with
  | returns h => exact .returns h
  | stops => exact .stops

private theorem indist_symm {ρ : ν₁ → ν₂ → Prop} {s₁ : Sockets ν₁} {s₂ : Sockets ν₂} (h : Indistinguishable ρ s₁ s₂) :
    Indistinguishable (fun n₂ n₁ => ρ n₁ n₂) s₂ s₁ where
  getWriter _ _ c hr := outcome_symm (h.getWriter _ _ c hr)
  write _ _ c b hr := outcome_symm (h.write _ _ c b hr)
  flush _ _ c hr := outcome_symm (h.flush _ _ c hr)
  close _ _ c hr := outcome_symm (h.close _ _ c hr)
  isConnected _ _ c hr := (h.isConnected _ _ c hr).symm

private theorem indist_follows {ρ : ν₁ → ν₂ → Prop} {s₁ : Sockets ν₁} {s₂ : Sockets ν₂} (h : Indistinguishable ρ s₁ s₂) :
    SockFollows ρ s₁ s₂ where
  getWriter _ _ c hr := outcome_follows (h.getWriter _ _ c hr)
  write _ _ c b hr := outcome_follows (h.write _ _ c b hr)
  flush _ _ c hr := outcome_follows (h.flush _ _ c hr)
  close _ _ c hr := outcome_follows (h.close _ _ c hr)
  isConnected _ _ c hr := h.isConnected _ _ c hr

private theorem alike {ρ : ν₁ → ν₂ → Prop} {w₁ : World ν₁ υ} {w₂ : World ν₂ υ} (h : SameWorld ρ w₁ w₂) :
    Alike ρ (fun _ => true) w₁ w₂ :=
  ⟨h.net, h.user, h.conns, h.registry, h.shutdown, h.currentOps, h.rdyClosed, by rw [h.trace]⟩

private theorem same {ρ : ν₁ → ν₂ → Prop} {w₁ : World ν₁ υ} {w₂ : World ν₂ υ} (h : Alike ρ (fun _ => true) w₁ w₂) :
    SameWorld ρ w₁ w₂ :=
  ⟨h.net, h.user, h.conns, h.registry, h.shutdown, h.currentOps, h.rdyClosed, by
    have := h.trace
    rwa [List.filter_eq_self.mpr fun _ _ => rfl, List.filter_eq_self.mpr fun _ _ => rfl] at this⟩

private theorem flip {ρ : ν₁ → ν₂ → Prop} {w₁ : World ν₁ υ} {w₂ : World ν₂ υ} (h : SameWorld ρ w₁ w₂) :
    SameWorld (fun n₂ n₁ => ρ n₁ n₂) w₂ w₁ :=
  ⟨h.net, h.user.symm, h.conns.symm, h.registry.symm, h.shutdown.symm, h.currentOps.symm, h.rdyClosed.symm, h.trace.symm⟩

private theorem both {ρ : ν₁ → ν₂ → Prop} {s₁ : Server ν₁ υ} {s₂ : Server ν₂ υ} (hs : SameServer s₁ s₂)
    (hi : Indistinguishable ρ s₁.sock s₂.sock) :
    Mimics ρ s₁ s₂ ∧ Mimics (fun n₂ n₁ => ρ n₁ n₂) s₂ s₁ :=
  ⟨(indist_follows hi).mimics rfl rfl hs.hooks.symm hs.sessionsEnabled hs.maxConns hs.bufferSize hs.configMsg,
   (indist_follows (indist_symm hi)).mimics rfl rfl hs.hooks hs.sessionsEnabled.symm hs.maxConns.symm hs.bufferSize.symm
     hs.configMsg.symm⟩

private theorem sameEnd {ρ : ν₁ → ν₂ → Prop} {x : Go (World ν₁ υ)} {y : Go (World ν₂ υ)}
    (h : Follows (Alike ρ fun _ => true) x y) (h' : Follows (Alike (fun n₂ n₁ => ρ n₁ n₂) fun _ => true) y x) :
    SameEnd ρ x y :=
  ⟨fun w₁ h1 => by obtain ⟨w₂, h2, h3⟩ := h w₁ h1; exact ⟨w₂, h2, same h3⟩,
   fun w₂ h1 => by obtain ⟨w₁, h2, h3⟩ := h' w₂ h1; exact ⟨w₁, h2, flip (same h3)⟩⟩

/-- C100: on transports that look the same, connections are served in the same way: the same hooks are called with the
same arguments in the same order, sessions and connections end up the same, and the transports still look the same. -/
theorem C100_connections (ρ : ν₁ → ν₂ → Prop) (s₁ : Server ν₁ υ) (s₂ : Server ν₂ υ) (hs : SameServer s₁ s₂)
    (hi : Indistinguishable ρ s₁.sock s₂.sock) (w₁ : World ν₁ υ) (w₂ : World ν₂ υ) (hw : SameWorld ρ w₁ w₂)
    (c : ConnId) (limit : Int) (input : List Incoming) :
    SameEnd ρ (handleConnection s₁ w₁ c limit input) (handleConnection s₂ w₂ c limit input) := by
  obtain ⟨M, M'⟩ := both hs hi
  exact sameEnd (M.handleConnection (M.sameRequests (by rw [hs.hooks]) _ c) limit input (alike hw))
    (M'.handleConnection (M'.sameRequests (by rw [hs.hooks]) _ c) limit input (alike (flip hw)))

/-- C100: so are the messages of a connection that is already open. -/
theorem C100_messages (ρ : ν₁ → ν₂ → Prop) (s₁ : Server ν₁ υ) (s₂ : Server ν₂ υ) (hs : SameServer s₁ s₂)
    (hi : Indistinguishable ρ s₁.sock s₂.sock) (w₁ : World ν₁ υ) (w₂ : World ν₂ υ) (hw : SameWorld ρ w₁ w₂)
    (c : ConnId) (input : List Incoming) :
    SameEnd ρ (serve s₁ w₁ c input) (serve s₂ w₂ c input) := by
  obtain ⟨M, M'⟩ := both hs hi
  exact sameEnd (M.serve (M.sameRequests (by rw [hs.hooks]) _ c) input (alike hw))
    (M'.serve (M'.sameRequests (by rw [hs.hooks]) _ c) input (alike (flip hw)))

/-- C100: so are the calls the application makes. -/
theorem C100_calls (ρ : ν₁ → ν₂ → Prop) (s₁ : Server ν₁ υ) (s₂ : Server ν₂ υ) (hs : SameServer s₁ s₂)
    (hi : Indistinguishable ρ s₁.sock s₂.sock) (w₁ : World ν₁ υ) (w₂ : World ν₂ υ) (hw : SameWorld ρ w₁ w₂)
    (a : ApiCall) : SameEnd ρ (runApi s₁ w₁ a) (runApi s₂ w₂ a) := by
  obtain ⟨M, M'⟩ := both hs hi
  exact sameEnd (M.runApi (alike hw) a) (M'.runApi (alike (flip hw)) a)

/-- A transport like the ideal network that counts what is written, and whose connections can be in one more state. -/
private def exCounting : Sockets (Net × Nat) where
  getWriter n c := (idealSockets.getWriter n.1 c).map fun r => ((r.1, n.2), r.2)
  writer c :=
    { write := fun n b => ((idealSockets.writer c).write n.1 b).map fun r => ((r.1, n.2 + b.length), r.2)
      close := fun n => ((idealSockets.writer c).close n.1).map fun r => ((r.1, n.2), r.2) }
  close n c := (idealSockets.close n.1 c).map fun r => ((r.1, n.2), r.2)
  isConnected n c := n.1.connected c

private theorem exMap {α : Type} {k : Nat} {x : Go (Net × α)} :
    SameOutcome (fun (n : Net) (m : Net × Nat) => n = m.1) x (x.map fun r => ((r.1, k), r.2)) := by
  cases x with
  | error e => exact .stops
  | ok r => exact .returns rfl

/-- C100, non-vacuity: the two transports differ and look the same; a request is answered on both. -/
example : Indistinguishable (fun (n : Net) (m : Net × Nat) => n = m.1) idealSockets exCounting ∧
    SameServer (exServer { payload := [7] }) { exServer { payload := [7] } with sock := exCounting } ∧
    SameWorld (fun (n : Net) (m : Net × Nat) => n = m.1) exWorld { exWorld with net := (exWorld.net, 0) } ∧
    ∃ w', serve { exServer { payload := [7] } with sock := exCounting } { exWorld with net := (exWorld.net, 0) } 1
      [.data [127, 1,2,3,4,5,6,7,8, 1, 97]] = .ok w' ∧ w'.net.2 = 10 ∧ w'.net.1.out 1 = [[191, 1,2,3,4,5,6,7,8, 7]] := by
  refine ⟨⟨?_, ?_, ?_, ?_, ?_⟩, ⟨rfl, rfl, rfl, rfl, rfl⟩, ⟨rfl, rfl, rfl, rfl, rfl, rfl, rfl, rfl⟩, ⟨_, rfl, rfl, rfl⟩⟩
  · rintro _ n c rfl; exact exMap
  · rintro _ n c b rfl; exact exMap
  · rintro _ n c rfl; exact exMap
  · rintro _ n c rfl; exact exMap
  · rintro _ n c rfl; rfl

/-! ## C60 -/

namespace Spec

/-- What a client received other than replies. -/
def otherThanReplies (l : List Bytes) : List Bytes := l.filter fun b => decide (¬ IsReply b)

/-- `g` does what `f` does, and closes its message in some more cases. -/
def ClosesMore (f g : υ → ConnId → Msg → υ × RequestOut) : Prop :=
  ∀ u c m, (g u c m).1 = (f u c m).1 ∧
    (g u c m).2 = { (f u c m).2 with closesMsg := (g u c m).2.closesMsg } ∧
    ((f u c m).2.closesMsg = true → (g u c m).2.closesMsg = true)

/-- The worlds differ at most in the replies `c` received. -/
structure SameButReplies (c : ConnId) (w₁ w₂ : World Net υ) : Prop where
  user : w₁.user = w₂.user
  conns : w₁.conns = w₂.conns
  registry : w₁.registry = w₂.registry
  shutdown : w₁.shutdown = w₂.shutdown
  currentOps : w₁.currentOps = w₂.currentOps
  rdyClosed : w₁.rdyClosed = w₂.rdyClosed
  connected : w₁.net.connected = w₂.net.connected
  others : ∀ i, i ≠ c → w₁.net.out i = w₂.net.out i
  notReplies : otherThanReplies (w₁.net.out c) = otherThanReplies (w₂.net.out c)
  hooks : w₁.trace.filter (fun e => decide (e ≠ .sent c)) = w₂.trace.filter fun e => decide (e ≠ .sent c)

end Spec

/-- The networks differ at most in the replies `c` received; nothing is half-written. -/
private structure NetBut (c : ConnId) (n₁ n₂ : Net) : Prop where
  connected : n₁.connected = n₂.connected
  pending₁ : ∀ i, n₁.pending i = []
  pending₂ : ∀ i, n₂.pending i = []
  others : ∀ i, i ≠ c → n₁.out i = n₂.out i
  notReplies : otherThanReplies (n₁.out c) = otherThanReplies (n₂.out c)

private theorem NetBut.deliver {c : ConnId} {n₁ n₂ : Net} (h : NetBut c n₁ n₂) (i : ConnId) (b : Bytes) :
    NetBut c (n₁.deliver i b) (n₂.deliver i b) where
  connected := h.connected
  pending₁ j := by by_cases hj : j = i <;> simp [Net.deliver, hj, h.pending₁]
  pending₂ j := by by_cases hj : j = i <;> simp [Net.deliver, hj, h.pending₂]
  others j hj := by
    by_cases hi : j = i
    · subst hi; simp [Net.deliver, h.others j hj]
    · simp [Net.deliver, hi, h.others j hj]
  notReplies := by
    by_cases hi : c = i
    · subst hi
      have := h.notReplies
      unfold otherThanReplies at this ⊢
      simp only [Net.deliver, if_true, List.filter_append, this]
    · simpa [Net.deliver, hi] using h.notReplies

private theorem NetBut.left {c : ConnId} {n₁ n₂ : Net} (h : NetBut c n₁ n₂) {b : Bytes} (hb : IsReply b) :
    NetBut c (n₁.deliver c b) n₂ where
  connected := h.connected
  pending₁ j := by by_cases hj : j = c <;> simp [Net.deliver, hj, h.pending₁]
  pending₂ := h.pending₂
  others j hj := by simp [Net.deliver, hj, h.others j hj]
  notReplies := by
    have := h.notReplies
    unfold otherThanReplies at this ⊢
    simpa [Net.deliver, List.filter_append, hb] using this

private theorem NetBut.right {c : ConnId} {n₁ n₂ : Net} (h : NetBut c n₁ n₂) {b : Bytes} (hb : IsReply b) :
    NetBut c n₁ (n₂.deliver c b) where
  connected := h.connected
  pending₁ := h.pending₁
  pending₂ j := by by_cases hj : j = c <;> simp [Net.deliver, hj, h.pending₂]
  others j hj := by simp [Net.deliver, hj, h.others j hj]
  notReplies := by
    have := h.notReplies
    unfold otherThanReplies at this ⊢
    simpa [Net.deliver, List.filter_append, hb] using this

/-- What sending amounts to on the ideal network. -/
private theorem send_ideal (n : Net) (h0 : ∀ i, n.pending i = []) (c : ConnId) (call : WriterCall) (hp : ¬ call.Panics) :
    (n.connected c = false ∧ sendOn idealSockets n c (fun wr s => call.run wr s) = .ok (n, some "disconnected", false)) ∨
    (n.connected c = true ∧ call.Valid ∧
      sendOn idealSockets n c (fun wr s => call.run wr s) = .ok (n.deliver c call.layout, none, true)) ∨
    (n.connected c = true ∧ ¬ call.Valid ∧
      ∃ e, sendOn idealSockets n c (fun wr s => call.run wr s) = .ok (n, some e, true)) := by
  unfold sendOn
  have hg : idealSockets.getWriter n c = if n.connected c then .ok (n, none) else .ok (n, some "disconnected") := rfl
  rw [hg]
  cases hc : n.connected c with
  | false => exact .inl ⟨rfl, rfl⟩
  | true =>
    right
    by_cases hv : call.Valid
    · refine .inl ⟨rfl, hv, ?_⟩
      have := call_ideal c n call hv hp (h0 c)
      simp only [if_true, bind, Except.bind, this]
      rfl
    · obtain ⟨e, he⟩ := call_ideal_invalid c n call hv (h0 c)
      refine .inr ⟨rfl, hv, e, ?_⟩
      simp only [if_true, bind, Except.bind, he]
      rfl

/-- The ideal network does not look at what was received. -/
private theorem ideal_blind : SockFollows (fun n₁ n₂ : Net => n₁.connected = n₂.connected ∧ n₁.pending = n₂.pending)
    idealSockets idealSockets where
  getWriter n₁ n₂ c h := by
    show Follows _ (if n₁.connected c then .ok (n₁, none) else .ok (n₁, some "disconnected"))
      (if n₂.connected c then .ok (n₂, none) else .ok (n₂, some "disconnected"))
    exact .ite (by rw [h.1]) (.ok ⟨h, rfl⟩) (.ok ⟨h, rfl⟩)
  write n₁ n₂ c b h := by
    simp only [netSockets, Option.any_none, Bool.false_eq_true, if_false]
    exact .ok ⟨⟨h.1, by simp only [h.2]⟩, rfl⟩
  flush n₁ n₂ c h := by
    show Follows _ (if n₁.pending c = [] then _ else _) (if n₂.pending c = [] then _ else _)
    exact .ite (by rw [h.2]) (.ok ⟨h, rfl⟩) (.ok ⟨⟨h.1, by simp only [h.2]⟩, rfl⟩)
  close n₁ n₂ c h := .ok ⟨⟨by simp only [h.1], h.2⟩, rfl⟩
  isConnected n₁ n₂ c h := by show n₁.connected c = n₂.connected c; rw [h.1]

private theorem NetBut.blind {c : ConnId} {n₁ n₂ : Net} (h : NetBut c n₁ n₂) :
    n₁.connected = n₂.connected ∧ n₁.pending = n₂.pending :=
  ⟨h.connected, by funext i; rw [h.pending₁, h.pending₂]⟩

private theorem NetBut.mimics {srv : Server Net υ} (hs : ideal srv) (f g : υ → ConnId → Msg → υ × RequestOut) (c : ConnId) :
    Mimics (NetBut c) (withOnRequest srv f) (withOnRequest srv g) where
  hooks := ⟨g, rfl⟩
  sessionsEnabled := rfl
  maxConns := rfl
  bufferSize := rfl
  configMsg := rfl
  send n₁ n₂ i call hp h := by
    show Follows _ (sendOn srv.sock n₁ i _) (sendOn srv.sock n₂ i _)
    rw [hs]
    intro a ha
    obtain ⟨b, hb, _, he⟩ := ideal_blind.sendOn h.blind i (g := fun wr s => call.run wr s) (fun _ _ h => ideal_blind.run h i call) a ha
    refine ⟨b, hb, ?_, he⟩
    rcases send_ideal n₁ h.pending₁ i call hp with ⟨c1, e1⟩ | ⟨c1, v1, e1⟩ | ⟨c1, v1, er, e1⟩ <;>
      rcases send_ideal n₂ h.pending₂ i call hp with ⟨c2, e2⟩ | ⟨c2, v2, e2⟩ | ⟨c2, v2, er', e2⟩ <;>
      rw [e1] at ha <;> rw [e2] at hb <;> cases ha <;> cases hb
    all_goals first
      | exact h
      | exact h.deliver i _
      | exact absurd ‹call.Valid› ‹¬ call.Valid›
      | (rw [h.connected, c2] at c1; cases c1)
  conf n₁ n₂ i bs h := by
    show Follows _ (sendOn srv.sock n₁ i _) (sendOn srv.sock n₂ i _)
    rw [hs]
    unfold sendOn
    show Follows _ ((if n₁.connected i then .ok (n₁, none) else .ok (n₁, some "disconnected")) >>= _)
      ((if n₂.connected i then .ok (n₂, none) else .ok (n₂, some "disconnected")) >>= _)
    rw [← h.connected]
    cases n₁.connected i with
    | false => exact .ok ⟨h, rfl⟩
    | true =>
      simp only [if_true, bind, Except.bind]
      by_cases hb : bs = []
      · have e : ∀ n : Net, (∀ j, n.pending j = []) →
            writePart (idealSockets.writer i) n bs (fun s => (idealSockets.writer i).close s) = .ok (n, some "no data written") := by
          intro n hn
          have : (fun j => if j = i then ([] : Bytes) else n.pending j) = n.pending := by
            funext j; by_cases hj : j = i <;> simp [hj, hn]
          subst hb
          simp only [writePart, netSockets, Option.any_none, Bool.false_eq_true, if_false, bind, Except.bind, hn, List.append_nil,
            if_true]
          simp only [hn] at this
          rw [this]
        rw [e _ h.pending₁, e _ h.pending₂]
        exact .ok ⟨h, rfl⟩
      · have e : ∀ n : Net, (∀ j, n.pending j = []) →
            writePart (idealSockets.writer i) n bs (fun s => (idealSockets.writer i).close s) = .ok (n.deliver i bs, none) := by
          intro n hn
          have := runParts_ideal i [bs] n (by simpa [hn] using hb)
          simpa [hn, runParts] using this
        rw [e _ h.pending₁, e _ h.pending₂]
        exact .ok ⟨h.deliver i _, rfl⟩
  close n₁ n₂ i h := by
    show Follows _ (srv.sock.close n₁ i) (srv.sock.close n₂ i)
    rw [hs]
    exact .ok ⟨by simp only [h.connected], h.pending₁, h.pending₂, h.others, h.notReplies⟩
  isConnected n₁ n₂ i h := by
    show srv.sock.isConnected n₁ i = srv.sock.isConnected n₂ i
    rw [hs]
    show n₁.connected i = n₂.connected i
    rw [h.connected]

/-- A reply on the left, and nothing on the right. -/
private theorem left_reply {srv : Server Net υ} (hs : ideal srv) {c : ConnId} {w₁ w₂ w₁' : World Net υ} {e : Option Err}
    (h : Alike (NetBut c) (fun e => decide (e ≠ .sent c)) w₁ w₂) {call : WriterCall} (hp : ¬ call.Panics)
    (hr : call.Valid → IsReply call.layout)
    (hw : withWriter srv w₁ c (fun wr s => call.run wr s) = .ok (w₁', e)) :
    Alike (NetBut c) (fun e => decide (e ≠ .sent c)) w₁' w₂ := by
  rw [withWriter_sendOn, hs] at hw
  have tr : ∀ n, NetBut c n w₂.net →
      Alike (NetBut c) (fun e => decide (e ≠ .sent c)) ({ w₁ with net := n }.log (.sent c)) w₂ := fun n hn =>
    { h with net := hn, trace := by simpa [World.log] using h.trace }
  rcases send_ideal w₁.net h.net.pending₁ c call hp with ⟨c1, e1⟩ | ⟨c1, v1, e1⟩ | ⟨c1, v1, er, e1⟩ <;> rw [e1] at hw <;> cases hw
  · exact { h with }
  · exact tr _ (h.net.left (hr v1))
  · exact tr _ h.net

/-- A reply on the right, and nothing on the left. -/
private theorem right_reply {srv : Server Net υ} (hs : ideal srv) {c : ConnId} {w₁ w₂ : World Net υ}
    (h : Alike (NetBut c) (fun e => decide (e ≠ .sent c)) w₁ w₂) {call : WriterCall} (hp : ¬ call.Panics)
    (hr : call.Valid → IsReply call.layout) :
    ∃ w₂' e, withWriter srv w₂ c (fun wr s => call.run wr s) = .ok (w₂', e) ∧
      Alike (NetBut c) (fun e => decide (e ≠ .sent c)) w₁ w₂' := by
  rw [withWriter_sendOn, hs]
  have tr : ∀ n, NetBut c w₁.net n →
      Alike (NetBut c) (fun e => decide (e ≠ .sent c)) w₁ ({ w₂ with net := n }.log (.sent c)) := fun n hn =>
    { h with net := hn, trace := by simpa [World.log] using h.trace }
  rcases send_ideal w₂.net h.net.pending₂ c call hp with ⟨c1, e1⟩ | ⟨c1, v1, e1⟩ | ⟨c1, v1, er, e1⟩ <;> rw [e1]
  · exact ⟨_, _, rfl, { h with }⟩
  · exact ⟨_, _, rfl, tr _ (h.net.right (hr v1))⟩
  · exact ⟨_, _, rfl, tr _ h.net⟩

private theorem closed_silent {m : Msg} (he : m.isEmpty = false) : m.close.1.requiresReply = false := by
  unfold Msg.close
  rw [he]
  rfl

private theorem answer_closed {srv : Server Net υ} (hs : ideal srv) (f g : υ → ConnId → Msg → υ × RequestOut) {c : ConnId}
    {w₁ w₂ : World Net υ} (h : Alike (NetBut c) (fun e => decide (e ≠ .sent c)) w₁ w₂) (m : Msg) (he : m.isEmpty = false)
    (out out' : RequestOut) (ho : out' = { out with closesMsg := out'.closesMsg }) :
    Follows (Alike (NetBut c) fun e => decide (e ≠ .sent c)) (answerRequest (withOnRequest srv f) w₁ c m out)
      (answerRequest (withOnRequest srv g) w₂ c m.close.1 out') := by
  have hs1 : ∀ k, ideal (withOnRequest srv k) := fun _ => hs
  have ee : out'.err = out.err := by rw [ho]
  have ep : out'.payload = out.payload := by rw [ho]
  have en : out'.enc = out.enc := by rw [ho]
  unfold answerRequest
  rw [ee, ep, en]
  have fail : ∀ e w', failMsg (withOnRequest srv f) w₁ c m e = .ok w' →
      ∃ b, failMsg (withOnRequest srv g) w₂ c m.close.1 e = .ok b ∧
        Alike (NetBut c) (fun e => decide (e ≠ .sent c)) w' b := by
    intro e w' hf
    refine ⟨w₂, by unfold failMsg; rw [closed_silent he]; rfl, ?_⟩
    rcases failMsg_ok hf with ⟨_, rfl⟩ | ⟨_, ⟨er, code, text, _, hw⟩ | ⟨_, _, _, _, rfl⟩ | ⟨_, _, er, hw⟩⟩
    · exact h
    · exact left_reply (call := .errorReply m.identifierBytes code text true) (hs1 f) h (by simp [WriterCall.Panics])
        (fun _ => ⟨_, _, rfl, by decide⟩) hw
    · exact h
    · exact left_reply (call := .special (specialFor e) m.identifierBytes) (hs1 f) h (by simp [WriterCall.Panics])
        (fun _ => ⟨_, _, rfl, by cases e <;> simp [specialFor] <;> decide⟩) hw
  cases out.err with
  | nil =>
    intro a ha
    obtain ⟨e, ha⟩ := fulfillMsg_ok ha
    have hr : ∀ id, IsReply (WriterCall.layout (.reply id out.enc out.payload)) := fun id =>
      ⟨_, _, rfl, by split_ifs <;> decide⟩
    have h2 := left_reply (call := .reply m.identifierBytes out.enc out.payload) (hs1 f) h (by simp [WriterCall.Panics])
      (fun _ => hr _) ha
    obtain ⟨b, e', hb, h3⟩ := right_reply (call := .reply m.close.1.identifierBytes out.enc out.payload) (hs1 g) h2
      (by simp [WriterCall.Panics]) (fun _ => hr _)
    refine ⟨b, ?_, h3⟩
    show (withWriter (withOnRequest srv g) w₂ c (fun wr s => WriterCall.run wr s (.reply m.close.1.identifierBytes out.enc out.payload)) >>= _) = _
    rw [hb]
    rfl
  | request a b => exact fun w' h => fail _ w' h
  | requestPtr p => exact fun w' h => fail _ w' h
  | maxSessConnsReached => exact fun w' h => fail _ w' h
  | sessionNotFound => exact fun w' h => fail _ w' h
  | sessionsDisabled => exact fun w' h => fail _ w' h
  | other t => exact fun w' h => fail _ w' h

private theorem answer_same {srv : Server Net υ} (hs : ideal srv) (f g : υ → ConnId → Msg → υ × RequestOut) {c : ConnId}
    {keep : Ev → Bool} {w₁ w₂ : World Net υ} (h : Alike (NetBut c) keep w₁ w₂) (m : Msg)
    (out out' : RequestOut) (ho : out' = { out with closesMsg := out'.closesMsg }) :
    Follows (Alike (NetBut c) keep) (answerRequest (withOnRequest srv f) w₁ c m out)
      (answerRequest (withOnRequest srv g) w₂ c m out') := by
  have M := NetBut.mimics hs f g c
  have ee : out'.err = out.err := by rw [ho]
  have ep : out'.payload = out.payload := by rw [ho]
  have en : out'.enc = out.enc := by rw [ho]
  unfold answerRequest
  rw [ee, ep, en]
  cases out.err with
  | nil => exact M.fulfillMsg h c _ _ _
  | _ => exact M.failMsg h c _ _

private theorem same_requests {srv : Server Net υ} (hs : ideal srv) {f g : υ → ConnId → Msg → υ × RequestOut}
    (hfg : ClosesMore f g) (c : ConnId) :
    SameRequests (NetBut c) (fun e => decide (e ≠ .sent c)) (withOnRequest srv f) (withOnRequest srv g) c := by
  intro w₁ w₂ m h _
  have M := NetBut.mimics hs f g c
  rw [handleRequest_hook, handleRequest_hook, ← h.user]
  obtain ⟨h1, h2, h3⟩ := hfg w₁.user c m
  show Follows _ (hookReturned _ _ c m (f w₁.user c m)) (hookReturned _ _ c m (g w₁.user c m))
  unfold hookReturned
  have ec : (g w₁.user c m).2.calls = (f w₁.user c m).2.calls := by rw [h2]
  rw [h1, ec]
  refine (M.runApis _ ((h.log _).withUser _)).bind fun a b hab => ?_
  refine Follows.bind ?_ fun _ _ hab => M.finalize hab c
  cases hf : (f w₁.user c m).2.closesMsg with
  | true =>
    rw [h3 hf, if_pos rfl]
    exact answer_same hs f g hab _ _ _ h2
  | false =>
    cases hg : (g w₁.user c m).2.closesMsg with
    | false => exact answer_same hs f g hab _ _ _ h2
    | true =>
      rw [if_pos rfl, if_neg (by simp)]
      cases he : m.isEmpty with
      | false => exact answer_closed hs f g hab m he _ _ h2
      | true =>
        have : m.close.1 = m := by unfold Msg.close; rw [he]; rfl
        rw [this]
        exact answer_same hs f g hab _ _ _ h2

/-- C60, the part that holds: closing the message in `OnRequest` can only spoil the replies on that very connection.
Whatever the client sends, nothing else changes: what all others receive, the signals and notifications this client
receives, the hooks called, the sessions, the connections and the handler slots. This is about handlers that run one
after the other: with others in between, see `C60_taken_from_another`. Missing: that the replies are as they would be, which
is false. -/
theorem C60_handler_may_close_partial (srv : Server Net υ) (hs : ideal srv) (f g : υ → ConnId → Msg → υ × RequestOut)
    (hfg : ClosesMore f g) (w w₁ : World Net υ) (hp : ∀ i, w.net.pending i = []) (c : ConnId) (input : List Incoming)
    (h : serve (withOnRequest srv f) w c input = .ok w₁) :
    ∃ w₂, serve (withOnRequest srv g) w c input = .ok w₂ ∧ SameButReplies c w₁ w₂ := by
  have M := NetBut.mimics hs f g c
  obtain ⟨w₂, h2, h3⟩ := M.serve (same_requests hs hfg c) input (w₁ := w) (w₂ := w)
    ⟨⟨rfl, hp, hp, fun _ _ => rfl, rfl⟩, rfl, rfl, rfl, rfl, rfl, rfl, rfl⟩ w₁ h
  exact ⟨w₂, h2, h3.user, h3.conns, h3.registry, h3.shutdown, h3.currentOps, h3.rdyClosed, h3.net.connected, h3.net.others,
    h3.net.notReplies, h3.trace⟩

/-- C60, non-vacuity: a handler that sends a signal to another client and one to its own, and closes its message. -/
example : ClosesMore (υ := Unit) (fun u _ _ => (u, { payload := [7], calls := [.signal 1 [110] 0 [], .signal 2 [110] 0 []] }))
      (fun u _ _ => (u, { payload := [7], closesMsg := true, calls := [.signal 1 [110] 0 [], .signal 2 [110] 0 []] })) ∧
    (∀ i, exWorld.net.pending i = []) ∧
    ∃ w₁ w₂, serve (withOnRequest (exServer {}) fun u _ _ =>
        (u, { payload := [7], calls := [.signal 1 [110] 0 [], .signal 2 [110] 0 []] })) exWorld 1
        [.data [127, 1,2,3,4,5,6,7,8, 1, 97]] = .ok w₁ ∧
      serve (withOnRequest (exServer {}) fun u _ _ =>
        (u, { payload := [7], closesMsg := true, calls := [.signal 1 [110] 0 [], .signal 2 [110] 0 []] })) exWorld 1
        [.data [127, 1,2,3,4,5,6,7,8, 1, 97]] = .ok w₂ ∧
      w₁.net.out 1 = [[63, 1, 110], [191, 1,2,3,4,5,6,7,8, 7]] ∧ w₂.net.out 1 = [[63, 1, 110], [191, 7]] ∧
      w₂.net.out 2 = w₁.net.out 2 :=
  ⟨fun _ _ _ => ⟨rfl, rfl, fun h => by cases h⟩, fun _ => rfl, _, _, rfl, rfl, rfl, rfl, rfl⟩

/-- C60 is violated in a second way when handlers overlap: the message closed in `OnRequest` is back in the pool at once
(syncPool.go:16-18), and if another connection's reader obtains it and reads the next message into it before
`handleRequest` goes on, then `handleRequest` (handleRequest.go:22-38) finds the other message in it, and its own `Close`
at the end empties it and puts it back into the pool while the other handler has it. -/
theorem C60_taken_from_another (p p' : Pool) (i : Nat) (m m' : Msg) (bs : Bytes) (tp : Bool) (e : Option Err)
    (hm : p.heap[i]? = some m) (hne : m.isEmpty = false)
    (hr : ((p.close i).getFree i).readBytes i bs = .ok (p', tp, e)) (hm' : p'.heap[i]? = some m') (hne' : m'.isEmpty = false) :
    i ∈ (p.close i).free ∧ i ∈ (p'.close i).free ∧ ∃ m'', (p'.close i).heap[i]? = some m'' ∧ m''.isEmpty = true := by
  have hc : ∀ (q : Pool) (k : Msg), q.heap[i]? = some k → k.isEmpty = false →
      i ∈ (q.close i).free ∧ ∃ m'', (q.close i).heap[i]? = some m'' ∧ m''.isEmpty = true := by
    intro q k hk hke
    have hl : i < q.heap.length := (List.getElem?_eq_some_iff.mp hk).1
    unfold Pool.close Msg.close
    rw [hk]
    simp only [hke, Bool.false_eq_true, if_false, if_true]
    exact ⟨by simp, _, List.getElem?_set_self hl, rfl⟩
  exact ⟨(hc p m hm hne).1, hc p' m' hm' hne'⟩

/-- C60: the witness. A request with the identifier 1…8 is being handled and its hook closes the message; a request with
the identifier 9…16 is read into the same object; the first handler would now answer with the identifier 9…16, and then
closes the message under the second handler. -/
example : ∃ p1 p2 m1 m2 tp1 tp2, (newSyncPool 64).getNew.1.readBytes 0 [127, 1,2,3,4,5,6,7,8, 1, 97] = .ok (p1, tp1, none) ∧
    p1.heap[0]? = some m1 ∧ m1.identifierBytes = [1,2,3,4,5,6,7,8] ∧
    ((p1.close 0).getFree 0).readBytes 0 [127, 9,10,11,12,13,14,15,16, 1, 98] = .ok (p2, tp2, none) ∧
    p2.heap[0]? = some m2 ∧ m2.isEmpty = false ∧ m2.identifierBytes = [9,10,11,12,13,14,15,16] ∧ 0 ∉ p2.free ∧
    0 ∈ (p2.close 0).free :=
  ⟨_, _, _, _, _, _, rfl, rfl, rfl, rfl, rfl, rfl, rfl, by decide, by decide⟩

end Webwire
