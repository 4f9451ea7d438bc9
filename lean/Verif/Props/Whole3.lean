import Verif.Props.Whole2
import Verif.Props.Lifecycle4

/-!
# C98, continued: the server does not hang up on its clients

A connection stays open until someone closes it, the socket fails, or the client sends something that is no message (C30,
C09). So every request is answered without a condition on what becomes of the connection.
-/

set_option autoImplicit false

namespace Webwire.Whole
open _root_.Webwire.Spec

variable {cfg : Cfg} {s s' : State}

namespace Spec

/-- Someone breaks the connection: `Close` is called on the side of the server, or reading from the socket fails. -/
def Breaks (c : ConnId) : Label → Prop
  | .server (.close c') => c' = c
  | .server (.thread (.reading c') _) => c' = c
  | _ => False

/-- The states after any finite execution in which nobody breaks the connection. -/
inductive Unbroken (cfg : Cfg) (c : ConnId) : State → Prop
  | start : Unbroken cfg c {}
  | step (s : State) (l : Label) (s' : State) : Unbroken cfg c s → ¬ Breaks c l → Step cfg s l s' → Unbroken cfg c s'

/-- The client sent messages only: each fits the buffers of the server, and those that are no requests are understood. -/
def Polite (cfg : Cfg) (s : State) (c : ConnId) : Prop :=
  ∀ x ∈ s.sent c, x.bytes.length ≤ cfg.srv.bufferSize.toNat ∧
    (x.req = none → ∃ m, readMsg cfg.srv.bufferSize.toNat x.bytes = some m)

end Spec

theorem Unbroken.reachable {c : ConnId} (h : Spec.Unbroken cfg c s) : Reachable cfg s := by
  induction h with
  | start => exact .start
  | step s l s' _ _ hs ih => exact .step s l s' ih hs

theorem Polite.before {c : ConnId} {l : Label} (hs : Step cfg s l s') (h : Spec.Polite cfg s' c) : Spec.Polite cfg s c := by
  intro x hx
  obtain ⟨n, hn⟩ := List.getElem?_of_mem hx
  exact h x (List.mem_of_getElem? (hs.sent_mono hn))

theorem Polite.readable {c : ConnId} (hr : Reachable cfg s) (h : Spec.Polite cfg s c) {x : Sent} (hx : x ∈ s.sent c) (n : Nat) :
    incoming cfg n x.bytes ≠ none := by
  have : ∃ m, readMsg cfg.srv.bufferSize.toNat x.bytes = some m := by
    cases hk : x.req with
    | none => exact (h x hx).2 hk
    | some k =>
      obtain ⟨i, hi⟩ := List.getElem?_of_mem hx
      obtain ⟨q, -, hg⟩ := hr.sentInv.req c i x k hi hk
      obtain ⟨m, hm, -⟩ := readMsg_grammar hg (h x hx).1
      exact ⟨m, hm⟩
  obtain ⟨m, hm⟩ := this
  simp [incoming, hm]

theorem Unbroken.leftAlone {c : ConnId} (h : Spec.Unbroken cfg c s) (hp : Spec.Polite cfg s c) :
    Life.ReachableIf (Life.Spec.LeftAlone c) s.srv := by
  induction h with
  | start => exact .start
  | step s l s' hu hb hs ih =>
    have hp0 := Polite.before hs hp
    have ho := ih hp0
    have hr := Unbroken.reachable hu
    cases hs with
    | server l srv hi hl =>
      refine .step _ _ _ ho ?_ hl
      cases l with
      | close c' => exact hb
      | thread pc ch =>
        cases pc with
        | reading c' => exact fun e => absurd e hb
        | _ => trivial
      | _ => trivial
    | receive c' x ok srv hx hl =>
      refine .step _ _ _ ho ?_ hl
      intro e
      cases e
      exact Polite.readable hr hp0 (List.mem_of_getElem? hx) _
    | finish c' n inl up ch out x m bs srv hx hm hl hfit hb => exact .step _ (.thread (.running c' ⟨out.kind, n⟩ inl) ch) _ ho trivial hl
    | refuse c' lm x m bs ch srv hx hm hw hl hb => exact .step _ (.thread (.refusing c' lm) ch) _ ho trivial hl
    | _ => exact ho

/-- C98: a connection that exists stays open, its socket is not closed and `OnClientDisconnected` is not called, unless
someone broke it or the client sent something that is no message: whatever clients ask for, whatever handlers return, and
whatever happens on other connections. -/
theorem C98_stays_open {c : ConnId} (h : Spec.Unbroken cfg c s) (hp : Spec.Polite cfg s c) :
    ((s.srv.g.conns c).used = true → (s.srv.g.conns c).active = true ∧ (s.srv.g.conns c).sockCloses = 0) ∧
    .disconnected c ∉ s.srv.g.log :=
  Life.C30_stays_open s.srv c (Unbroken.leftAlone h hp)

/-- C98, what holds, about such a connection: as long as the server was not shut down, every request was answered (or given up
by its caller) once everything has happened that can be relied on to happen. Missing: as for `C98_partial`. -/
theorem C98_unbroken_partial {c : ConnId} (hs : ideal cfg.srv) (h : Spec.Unbroken cfg c s) (hp : Spec.Polite cfg s c) (hq : Spec.Quiet cfg s c)
    (hu : (s.srv.g.conns c).used = true) (hstop : .stop ∉ s.srv.g.log)
    (hn : (Req.draws (s.clients c).g.log).length < 2 ^ 64)
    (hout : ∀ d ∈ s.results, d.c = c → d.up = true ∧ d.out.closesMsg = false ∧ Spec.Sendable d.out)
    (hrep : ∀ y ∈ s.back c, y.2.length ≤ cfg.clientBuf) (x : Sent) (hx : x ∈ s.sent c) (k : Call) (hk : x.req = some k) :
    (∃ rep, Spec.Has (s.clients c) k.r rep) ∨ .gaveUp k.r ∈ (s.clients c).g.log :=
  (C98_partial hs (Unbroken.reachable h) c hq hstop ((C98_stays_open h hp).1 hu).1 hn hout (fun x hx => (hp x hx).1) hrep x hx k hk).1

/-! Example. -/

/-- `Spec.Breaks`, computed. -/
def breaks (c : ConnId) (t : Life.State) (cmd : Cmd) : Bool :=
  match cmd with
  | .sv cmd =>
    match cmd.label t with
    | some (.close c') => decide (c' = c)
    | some (.thread (.reading c') _) => decide (c' = c)
    | _ => false
  | _ => false

/-- Make the steps if none breaks the connection. -/
def playUnbroken (cfg : Cfg) (c : ConnId) (s : State) : List Cmd → Option State
  | [] => some s
  | cmd :: cmds =>
    if breaks c s.srv cmd then none
    else match exec cfg s cmd with
      | some s' => playUnbroken cfg c s' cmds
      | none => none

theorem playUnbroken_ok {c : ConnId} (cmds : List Cmd) (hr : Spec.Unbroken cfg c s) (h : playUnbroken cfg c s cmds = some s') :
    Spec.Unbroken cfg c s' := by
  induction cmds generalizing s with
  | nil => cases h; exact hr
  | cons cmd cmds ih =>
    simp only [playUnbroken] at h
    split at h
    · cases h
    · rename_i hb
      split at h
      · rename_i s1 he
        obtain ⟨l, hl, hlab⟩ := exec_label he
        refine ih (.step _ _ _ hr (fun hbr => ?_) hl) h
        cases l with
        | server l' =>
          obtain ⟨cmd', rfl, hl'⟩ := hlab l' rfl
          refine hb ?_
          simp only [breaks, hl']
          cases l' with
          | thread pc ch => cases pc <;> simp_all [Spec.Breaks]
          | _ => simp_all [Spec.Breaks]
        | _ => exact hbr
      · cases h

/-- Two requests that are answered (as for C97), on a connection that nobody breaks. -/
example : ∃ s, Spec.Unbroken exCfg 1 s ∧ Spec.Polite exCfg s 1 ∧ Spec.Quiet exCfg s 1 ∧ (s.srv.g.conns 1).used = true ∧
    (s.sent 1).map (fun x => x.req.map (·.r)) = [some 0, some 1] ∧ s.results.length = 2 := by
  have hrun : ∃ s, playUnbroken exCfg 1 {} exTwo = some s ∧ (s.srv.g.conns 1).used = true ∧
      s.taken 1 = (s.sent 1).length ∧ s.seen 1 = (s.back 1).length ∧ s.srv.threads = [.reading 1] ∧ (s.clients 1).threads = [] ∧
      (s.sent 1).map (·.bytes.length) = [12, 12] ∧ (s.sent 1).map (fun x => x.req.map (·.r)) = [some 0, some 1] ∧
      s.results.length = 2 :=
    ⟨_, rfl, rfl, rfl, rfl, rfl, rfl, rfl, rfl, rfl⟩
  obtain ⟨s, hp, h1, h2, h3, h4, h5, h6, h7, h8⟩ := hrun
  refine ⟨s, playUnbroken_ok _ .start hp, fun x hx => ⟨?_, fun hn => ?_⟩, quiet_of h5 h3 h4 (.inl ⟨rfl, h2⟩), h1, h7, h8⟩
  · have := List.mem_map_of_mem (f := fun x : Sent => x.bytes.length) hx
    rw [h6] at this
    have hb : exCfg.srv.bufferSize.toNat = 64 := rfl
    simp at this; omega
  · have := List.mem_map_of_mem (f := fun x : Sent => x.req.map (·.r)) hx
    rw [h7, hn] at this
    simp at this

end Webwire.Whole
