import Verif.Proofs.Frame
import Verif.Proofs.Returns

/-! Helper lemmas: connections from acceptance to disconnection. -/

set_option autoImplicit false

namespace Webwire
open Spec

variable {ν υ : Type} {srv : Server ν υ}

/-- The world when `OnClientConnected` is called. -/
def accepted (w : World ν υ) (c : ConnId) (limit : Int) : World ν υ :=
  (w.upd c fun _ => { limit := limit, isActive := true }).log (.onClientConnected c)

theorem handleConnection_ok {w w' : World ν υ} {c : ConnId} {limit : Int} {input : List Incoming}
    (h : handleConnection srv w c limit input = .ok w') :
    (∃ w1 e net ce, writeConfMessage srv w c = .ok (w1, some e) ∧ srv.sock.close w1.net c = .ok (net, ce) ∧
      w' = { w1 with net := net }.log (.sockClose c)) ∨
    (∃ w1 w2, writeConfMessage srv w c = .ok (w1, none) ∧
      runApis srv { accepted w1 c limit with user := (srv.hooks.onClientConnected w1.user c).1 }
        (srv.hooks.onClientConnected w1.user c).2 = .ok w2 ∧ serve srv w2 c input = .ok w') := by
  unfold handleConnection at h
  obtain ⟨⟨w1, e⟩, h1, h⟩ := bind_ok h
  cases e with
  | some e =>
    obtain ⟨⟨net, ce⟩, h2, h⟩ := bind_ok h
    simp only [pure, Except.pure, Except.ok.injEq] at h
    exact .inl ⟨w1, e, net, ce, h1, h2, h.symm⟩
  | none =>
    obtain ⟨w2, h2, h⟩ := bind_ok h
    exact .inr ⟨w1, w2, h1, h2, h⟩

theorem disconnect_ok {w w' : World ν υ} {c : ConnId} (h : disconnect srv w c = .ok w') :
    ∃ w1, connClose srv (releaseMsg w) c = .ok w1 ∧
      runApis srv { w1.log (.onClientDisconnected c) with user := (srv.hooks.onClientDisconnected w1.user c).1 }
        (srv.hooks.onClientDisconnected w1.user c).2 = .ok w' := by
  unfold disconnect at h
  obtain ⟨w1, h1, h⟩ := bind_ok h
  exact ⟨w1, h1, h⟩

theorem Grew.hookCalls {w w' : World ν υ} (h : Grew w w') : hookCalls w'.trace = hookCalls w.trace := by
  obtain ⟨l, e, hl⟩ := h
  rw [e, Spec.hookCalls, List.filter_append]
  have : l.filter isMsgHook = [] := by
    rw [List.filter_eq_nil_iff]
    intro x hx
    have := hl x hx
    cases x <;> simp_all [Plain, isMsgHook]
  rw [this, List.append_nil]; rfl

theorem plain_not_hook {l : List Ev} (h : ∀ e ∈ l, Plain e) : l.filter isMsgHook = [] := by
  rw [List.filter_eq_nil_iff]
  intro x hx
  have := h x hx
  cases x <;> simp_all [Plain, isMsgHook]

theorem plain_not_close {l : List Ev} (h : ∀ e ∈ l, Plain e) : l.count .msgClose = 0 := by
  rw [List.count_eq_zero]
  intro hx
  exact h _ hx

theorem expectedHooks_hook (a s : Bool) (c : ConnId) (v : View) :
    (expectedHooks a s c v).filter isMsgHook = expectedHooks a s c v := by
  unfold expectedHooks
  split_ifs <;> rfl

theorem handleMessage_hooks {w w' : World ν υ} {c : ConnId} {m : Msg} {v : View} (hs : m.shown = v)
    (he : m.payload.encoding = parserEncoding v.msgType) (h : handleMessage srv w c m = .ok w') :
    hookCalls w'.trace = hookCalls w.trace ++ expectedHooks (w.conns c).isActive w.shutdown c v := by
  obtain ⟨l, ht, hl⟩ := handleMessage_trace h
  rw [hooksOf_grammar hs he] at ht
  rw [ht]
  unfold hookCalls
  rw [List.filter_append, List.filter_append, List.filter_append, plain_not_hook hl, expectedHooks_hook,
    List.append_nil]
  simp [isMsgHook]

theorem deregister_trace {w w' : World ν υ} {c : ConnId} {d : Bool} {n : Int}
    (h : deregister srv w c d = .ok (w', n)) : w.trace <+: w'.trace := by
  rcases deregister_ok h with ⟨_, rfl, _⟩ | ⟨s, _, _, ⟨_, rfl⟩ | ⟨_, _, _, rfl⟩⟩
  · exact List.prefix_refl _
  · exact List.prefix_refl _
  · exact List.prefix_append _ _

/-- Events are only added. -/
theorem traceFrame (srv : Server ν υ) : Frame srv fun a b => a.trace <+: b.trace where
  refl _ := List.prefix_refl _
  trans := List.IsPrefix.trans
  getWriter _ _ _ _ _ := List.prefix_refl _
  write _ _ _ _ _ _ := List.prefix_refl _
  flush _ _ _ _ _ := List.prefix_refl _
  close _ _ _ _ _ _ := List.prefix_refl _
  generate _ := List.prefix_refl _
  event _ _ _ _ _ := List.prefix_append _ _
  conn _ _ _ _ := List.prefix_refl _
  ops _ _ _ := List.prefix_refl _
  leave w c d w1 n _ hd := by
    show w.trace <+: w1.trace
    exact deregister_trace hd
  create w w1 c s w2 e _ _ _ h _ _ _ hr := by
    obtain ⟨_, _, rfl, _⟩ := register_ok hr; exact h
  restore w c s w1 _ _ _ _ hr := by
    obtain ⟨_, _, rfl, _⟩ := register_ok hr; exact List.prefix_refl _

/-- A relation between network states that every socket operation respects. -/
structure SockRel (srv : Server ν υ) (R : ν → ν → Prop) : Prop where
  refl : ∀ n, R n n
  trans : ∀ {n n' n''}, R n n' → R n' n'' → R n n''
  getWriter : ∀ n c net e, srv.sock.getWriter n c = .ok (net, e) → R n net
  write : ∀ n c b net e, (srv.sock.writer c).write n b = .ok (net, e) → R n net
  flush : ∀ n c net e, (srv.sock.writer c).close n = .ok (net, e) → R n net
  close : ∀ n c net e, srv.sock.close n c = .ok (net, e) → R n net

theorem deregister_net {w w' : World ν υ} {c : ConnId} {d : Bool} {n : Int}
    (h : deregister srv w c d = .ok (w', n)) : w'.net = w.net := by
  rcases deregister_ok h with ⟨_, rfl, _⟩ | ⟨s, _, _, ⟨_, rfl⟩ | ⟨_, _, _, rfl⟩⟩ <;> rfl

theorem register_net {w w' : World ν υ} {c : ConnId} {e : Option Err}
    (h : register srv w c = .ok (w', e)) : w'.net = w.net := by
  obtain ⟨s, _, rfl, _⟩ := register_ok h
  rfl

theorem SockRel.frame {R : ν → ν → Prop} (h : SockRel srv R) : Frame srv fun w w' => R w.net w'.net where
  refl w := h.refl _
  trans := h.trans
  getWriter w c net e hg := h.getWriter _ c net e hg
  write w c b net e hg := h.write _ c b net e hg
  flush w c net e hg := h.flush _ c net e hg
  close w c net e _ hg := h.close _ c net e hg
  generate w := h.refl _
  event w e u _ _ := h.refl _
  conn w c f _ := h.refl _
  ops w a b := h.refl _
  leave w c d w1 n _ hd := by
    show R w.net w1.net
    rw [deregister_net hd]; exact h.refl _
  create w w1 c s w2 e _ _ _ h' _ _ _ hr := by
    have e1 := register_net hr
    rw [e1]; exact h'
  restore w c s w1 _ _ _ _ hr := by
    have e1 := register_net hr
    rw [e1]; exact h.refl w.net

/-- On the networks of `Spec.Net` messages once delivered stay. -/
theorem outGrows {υ : Type} {srv : Server Net υ} {cap : Option Nat} (hs : srv.sock = netSockets cap) :
    SockRel srv fun n n' => ∀ i, n.out i <+: n'.out i where
  refl n i := List.prefix_refl _
  trans h h' i := (h i).trans (h' i)
  getWriter n c net e h := by
    rw [hs] at h
    simp only [netSockets] at h
    split_ifs at h <;> cases h <;> exact fun _ => List.prefix_refl _
  write n c b net e h := by
    rw [hs] at h
    simp only [netSockets] at h
    split_ifs at h <;> cases h <;> exact fun _ => List.prefix_refl _
  flush n c net e h := by
    rw [hs] at h
    simp only [netSockets] at h
    split_ifs at h <;> cases h
    · exact fun _ => List.prefix_refl _
    · intro i
      by_cases hi : i = c
      · subst hi; simp
      · simp [hi]
  close n c net e h := by
    rw [hs] at h
    simp only [netSockets] at h
    cases h; exact fun _ => List.prefix_refl _

theorem Quiet.prefix {w w' : World ν υ} (h : Quiet w w') : w.trace <+: w'.trace := by
  obtain ⟨l, e, _⟩ := h.trace
  exact ⟨l, e.symm⟩

theorem disconnect_trace {w w' : World ν υ} {c : ConnId} (h : disconnect srv w c = .ok w') :
    ∃ l1 l2, w'.trace = w.trace ++ [.msgClose] ++ l1 ++ [.onClientDisconnected c] ++ l2 ∧
      (∀ e ∈ l1, Plain e) ∧ (∀ e ∈ l2, Plain e) ∧
      ((w.conns c).isActive = true → (w.conns c).tasks < 1 → .sockClose c ∈ l1) ∧
      (¬ ((w.conns c).isActive = true ∧ (w.conns c).tasks < 1) → l1 = []) ∧ (w'.conns c).isActive = false := by
  obtain ⟨w1, h1, h2⟩ := disconnect_ok h
  have q2 := Quiet.runApis h2
  obtain ⟨l2, e2, hl2⟩ := q2.trace
  have q1 := Quiet.connClose h1
  obtain ⟨l1, e1, hl1⟩ := q1.trace
  have hina : (w1.conns c).isActive = false := by
    rcases connClose_ok h1 with ⟨ha, rfl⟩ | ⟨_, ⟨_, hu⟩ | ⟨_, rfl⟩⟩
    · exact ha
    · have := (Quiet.unlink hu).active c
      by_contra hc
      have := this (by simpa using hc)
      simp [World.upd] at this
    · simp [World.upd]
  refine ⟨l1, l2, ?_, fun e he => (hl1 e he).plain, fun e he => (hl2 e he).plain, ?_, ?_, ?_⟩
  · rw [e2]
    simp only [World.log]
    rw [e1]
    simp [releaseMsg, World.log]
  · intro ha ht
    rcases connClose_ok h1 with ⟨ha', _⟩ | ⟨_, ⟨_, hu⟩ | ⟨ht', _⟩⟩
    · rw [show ((releaseMsg w).conns c).isActive = (w.conns c).isActive from rfl, ha] at ha'; cases ha'
    · obtain ⟨w3, n, net, e, hd, _, rfl⟩ := unlink_ok hu
      have hp := deregister_trace hd
      obtain ⟨k, hk⟩ := hp
      have : (releaseMsg w).trace ++ l1 = (releaseMsg w).trace ++ (k ++ [.sockClose c]) := by
        rw [← e1]
        simp only [World.log, setSession, World.upd]
        rw [← hk]
        simp [World.upd]
      have := List.append_cancel_left this
      rw [this]; simp
    · exact absurd ht ht'
  · intro hn
    rcases connClose_ok h1 with ⟨_, rfl⟩ | ⟨ha, ⟨ht, _⟩ | ⟨_, rfl⟩⟩
    · simpa using e1
    · exact absurd ⟨ha, ht⟩ hn
    · simpa [World.upd] using e1
  · by_contra hc
    have := q2.active c (by simpa using hc)
    simp only [World.log] at this
    rw [hina] at this
    cases this

/-- A connection that is still active has not been closed. -/
theorem connectedFrame {υ : Type} {srv : Server Net υ} {cap : Option Nat} (hs : srv.sock = netSockets cap)
    (i : ConnId) : Frame srv fun w w' => ((w'.conns i).isActive = true → (w.conns i).isActive = true) ∧
      ((w'.conns i).isActive = true → w.net.connected i = true → w'.net.connected i = true) where
  refl w := ⟨id, fun _ => id⟩
  trans h h' := ⟨fun ha => h.1 (h'.1 ha), fun ha hc => h'.2 ha (h.2 (h'.1 ha) hc)⟩
  getWriter w c net e h := by
    rw [hs] at h
    simp only [netSockets] at h
    split_ifs at h <;> cases h <;> exact ⟨id, fun _ => id⟩
  write w c b net e h := by
    rw [hs] at h
    simp only [netSockets] at h
    split_ifs at h <;> cases h <;> exact ⟨id, fun _ => id⟩
  flush w c net e h := by
    rw [hs] at h
    simp only [netSockets] at h
    split_ifs at h <;> cases h <;> exact ⟨id, fun _ => id⟩
  close w c net e ha h := by
    rw [hs] at h
    simp only [netSockets, Except.ok.injEq, Prod.mk.injEq] at h
    refine ⟨id, fun hi hc => ?_⟩
    simp only at hi
    rw [← h.1]
    by_cases hic : i = c
    · subst hic; rw [ha] at hi; cases hi
    · simpa [hic] using hc
  generate w := ⟨id, fun _ => id⟩
  event w e u _ _ := ⟨id, fun _ => id⟩
  conn w c f hf := by
    refine ⟨fun hi => ?_, fun _ => id⟩
    simp only [World.upd] at hi
    split_ifs at hi with hic
    · subst hic; exact (hf _).2.1 hi
    · exact hi
  ops w a b := ⟨id, fun _ => id⟩
  leave w c d w1 n _ hd := by
    refine ⟨fun hi => ?_, fun _ hc => ?_⟩
    · have := (Quiet.setSession w1 c none).active i hi
      rw [deregister_conns hd] at this; exact this
    · show w1.net.connected i = true
      rw [deregister_net hd]; exact hc
  create w w1 c s w2 e _ _ _ h _ _ _ hr := by
    obtain ⟨_, _, rfl, _⟩ := register_ok hr
    exact ⟨fun hi => h.1 ((Quiet.setSession w1 c (some s)).active i hi),
      fun hi hc => h.2 ((Quiet.setSession w1 c (some s)).active i hi) hc⟩
  restore w c s w1 _ _ _ _ hr := by
    obtain ⟨_, _, rfl, _⟩ := register_ok hr
    exact ⟨fun hi => (Quiet.setSession w c (some s)).active i hi, fun _ => id⟩

end Webwire
