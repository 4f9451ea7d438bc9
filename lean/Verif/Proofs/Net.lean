import Verif.Spec.Net
import Verif.Proofs.Api
import Verif.Proofs.Calls

/-! Helper lemmas: the ideal network. -/

set_option autoImplicit false

namespace Webwire
open Spec

variable {υ : Type}

/-- `c` received the message `b`. -/
def Spec.Net.deliver (n : Net) (c : ConnId) (b : Bytes) : Net :=
  { n with pending := fun i => if i = c then [] else n.pending i
           out := fun i => if i = c then n.out c ++ [b] else n.out i }

theorem runParts_ideal (c : ConnId) (parts : List Bytes) : ∀ (n : Net),
    n.pending c ++ parts.flatten ≠ [] →
    runParts (idealSockets.writer c) n parts = .ok (n.deliver c (n.pending c ++ parts.flatten), none) := by
  induction parts with
  | nil =>
    intro n h
    simp only [List.flatten_nil, List.append_nil] at h
    simp [runParts, netSockets, h, Net.deliver]
  | cons p ps ih =>
    intro n h
    simp only [runParts, writePart, bind, Except.bind]
    have e : (idealSockets.writer c).write n p =
        .ok ({ n with pending := fun i => if i = c then n.pending c ++ p else n.pending i }, none) := by
      simp [netSockets]
    rw [e]
    simp only
    rw [ih]
    · simp only [Net.deliver, Except.ok.injEq, Prod.mk.injEq, and_true, if_true, List.flatten_cons,
        List.append_assoc]
      congr 1
      funext i
      by_cases hi : i = c <;> simp [hi]
    · simpa [List.append_assoc] using h

theorem call_ideal (c : ConnId) (n : Net) (call : WriterCall) (hv : call.Valid) (hp : ¬ call.Panics)
    (h0 : n.pending c = []) :
    call.run (idealSockets.writer c) n = .ok (n.deliver c call.layout, none) := by
  obtain ⟨parts, h1, h2⟩ := call_valid (idealSockets.writer c) n call hv hp
  have hne : call.layout ≠ [] := by cases call <;> simp [WriterCall.layout]
  rw [h1, runParts_ideal]
  · rw [h0, h2]; rfl
  · rw [h0, h2]; exact hne

theorem call_ideal_invalid (c : ConnId) (n : Net) (call : WriterCall) (hv : ¬ call.Valid)
    (h0 : n.pending c = []) :
    ∃ e, call.run (idealSockets.writer c) n = .ok (n, some e) := by
  obtain ⟨err, h⟩ := call_invalid (idealSockets.writer c) n call hv
  rw [h]
  simp only [closeWith, netSockets, h0, bind, Except.bind, if_true, pure, Except.pure]
  exact ⟨_, rfl⟩

/-- Only notifications were sent between `n` and `n'`, nothing is half-written, nobody was reconnected. -/
structure QuietNet (n n' : Net) : Prop where
  out : ∀ i, ∃ ns, n'.out i = n.out i ++ ns ∧ ∀ b ∈ ns, Notification b
  pending : ∀ i, n'.pending i = []
  connected : ∀ i, n'.connected i = true → n.connected i = true

theorem QuietNet.refl {n : Net} (h : ∀ i, n.pending i = []) : QuietNet n n :=
  ⟨fun i => ⟨[], by simp, by simp⟩, h, fun _ h => h⟩

theorem QuietNet.trans {n n' n'' : Net} (h : QuietNet n n') (h' : QuietNet n' n'') : QuietNet n n'' where
  out i := by
    obtain ⟨l, e, hl⟩ := h.out i
    obtain ⟨l', e', hl'⟩ := h'.out i
    refine ⟨l ++ l', by rw [e', e, List.append_assoc], ?_⟩
    intro x hx
    rcases List.mem_append.mp hx with hx | hx
    · exact hl x hx
    · exact hl' x hx
  pending := h'.pending
  connected i hi := h.connected i (h'.connected i hi)

theorem QuietNet.deliver {n : Net} (h : ∀ i, n.pending i = []) (c : ConnId) (b : Bytes) (hb : Notification b) :
    QuietNet n (n.deliver c b) where
  out i := by
    by_cases hi : i = c
    · subst hi; exact ⟨[b], by simp [Net.deliver], by simpa using hb⟩
    · exact ⟨[], by simp [Net.deliver, hi], by simp⟩
  pending i := by
    by_cases hi : i = c <;> simp [Net.deliver, hi, h]
  connected i hi := hi

/-- The world is on the ideal network with nothing half-written, and between `w` and `w'` only notifications
were sent and no connection with a running handler was disconnected. -/
structure QuietW (w w' : World Net υ) : Prop where
  net : QuietNet w.net w'.net
  busy : ∀ i, 1 ≤ (w.conns i).tasks → w.net.connected i = true → w'.net.connected i = true
  tasks : ∀ i, (w'.conns i).tasks = (w.conns i).tasks

theorem QuietW.refl {w : World Net υ} (h : ∀ i, w.net.pending i = []) : QuietW w w :=
  ⟨QuietNet.refl h, fun _ _ h => h, fun _ => rfl⟩

theorem QuietW.trans {w w' w'' : World Net υ} (h : QuietW w w') (h' : QuietW w' w'') : QuietW w w'' :=
  ⟨h.net.trans h'.net, fun i ht hc => h'.busy i (by rw [h.tasks]; exact ht) (h.busy i ht hc),
    fun i => (h'.tasks i).trans (h.tasks i)⟩

/-- `w'` differs from `w` only in things the network does not see. -/
theorem QuietW.same {w w' : World Net υ} (h : ∀ i, w.net.pending i = []) (hn : w'.net = w.net)
    (ht : ∀ i, (w'.conns i).tasks = (w.conns i).tasks) : QuietW w w' :=
  ⟨by rw [hn]; exact QuietNet.refl h, fun _ _ h => by rw [hn]; exact h, ht⟩

variable {srv : Server Net υ}

theorem withWriter_quietW {w w' : World Net υ} {c : ConnId} {e : Option Err}
    {call : WriterCall} (hs : ideal srv) (h0 : ∀ i, w.net.pending i = []) (hp : ¬ call.Panics)
    (hn : call.Valid → Notification call.layout)
    (h : withWriter srv w c (fun wr s => call.run wr s) = .ok (w', e)) : QuietW w w' := by
  rcases withWriter_ok h with ⟨net, er, hg, rfl, _⟩ | ⟨net, net', hg, hf, rfl⟩
  · rw [hs] at hg
    simp only [netSockets] at hg
    split_ifs at hg
    · simp at hg
    · simp only [Except.ok.injEq, Prod.mk.injEq] at hg
      rw [← hg.1]; exact QuietW.refl h0
  · rw [hs] at hg hf
    simp only [netSockets] at hg
    split_ifs at hg
    · simp only [Except.ok.injEq, Prod.mk.injEq] at hg
      rw [← hg.1] at hf
      by_cases hv : call.Valid
      · rw [call_ideal c w.net call hv hp (h0 c)] at hf
        simp only [Except.ok.injEq, Prod.mk.injEq] at hf
        rw [← hf.1]
        exact ⟨QuietNet.deliver h0 c _ (hn hv), fun _ _ h => h, fun _ => rfl⟩
      · obtain ⟨er, he⟩ := call_ideal_invalid c w.net call hv (h0 c)
        rw [he] at hf
        simp only [Except.ok.injEq, Prod.mk.injEq] at hf
        rw [← hf.1]
        exact QuietW.same h0 rfl (fun _ => rfl)
    · simp at hg

theorem signal_quietW {w w' : World Net υ} {c : ConnId} {name : Bytes} {enc : Encoding} {payload : Bytes}
    {e : Option Err} (hs : ideal srv) (h0 : ∀ i, w.net.pending i = [])
    (h : signal srv w c name enc payload = .ok (w', e)) : QuietW w w' := by
  rcases signal_ok h with ⟨rfl, _⟩ | h
  · exact QuietW.refl h0
  · refine withWriter_quietW (call := .signal name enc payload true) hs h0 (by simp [WriterCall.Panics]) ?_ h
    intro _
    refine ⟨_, _, rfl, ?_⟩
    split_ifs <;> simp

theorem created_quietW {w w' : World Net υ} {c : ConnId} {s : Session}
    {e : Option Err} (hs : ideal srv) (h0 : ∀ i, w.net.pending i = [])
    (h : notifySessionCreated srv w c s = .ok (w', e)) : QuietW w w' := by
  rcases notifySessionCreated_ok h with ⟨rfl, _⟩ | ⟨bs, _, h⟩
  · exact QuietW.refl h0
  · exact withWriter_quietW (call := .sessionCreated bs) hs h0 (by simp [WriterCall.Panics])
      (fun _ => ⟨_, _, rfl, by simp⟩) h

theorem deregister_quietW {w w' : World Net υ} {c : ConnId} {d : Bool} {n : Int}
    (h0 : ∀ i, w.net.pending i = [])
    (h : deregister srv w c d = .ok (w', n)) : QuietW w w' := by
  rcases deregister_ok h with ⟨_, rfl, _⟩ | ⟨s, _, _, ⟨_, rfl⟩ | ⟨_, _, _, rfl⟩⟩ <;>
  exact QuietW.same h0 rfl (fun _ => rfl)

theorem setSession_quietW {w : World Net υ} {c : ConnId} {s : Option Session}
    (h0 : ∀ i, w.net.pending i = []) : QuietW w (setSession w c s) :=
  QuietW.same h0 rfl (Quiet.setSession w c s).tasks

theorem createSession_quietW {w w' : World Net υ} {c : ConnId} {info : Option Nat}
    {e : Option Err} (hs : ideal srv) (h0 : ∀ i, w.net.pending i = [])
    (h : createSession srv w c info = .ok (w', e)) : QuietW w w' := by
  rcases createSession_ok h with ⟨_, rfl, _⟩ | ⟨_, _, rfl, _⟩ | ⟨_, _, _, rfl, _⟩ |
    ⟨_, _, _, user, s, w1, en, _, hn, ⟨er, _, rfl, _⟩ | ⟨_, _, w2, er, hr, rfl⟩⟩
  · exact QuietW.refl h0
  · exact QuietW.refl h0
  · exact QuietW.refl h0
  · have h1 : QuietW w { w with user := user } := QuietW.same h0 rfl (fun _ => rfl)
    exact h1.trans (created_quietW hs h1.net.pending hn)
  · have h1 : QuietW w { w with user := user } := QuietW.same h0 rfl (fun _ => rfl)
    have h2 := h1.trans (created_quietW hs h1.net.pending hn)
    have h3 := h2.trans (setSession_quietW (c := c) (s := some s) h2.net.pending)
    obtain ⟨s', _, rfl, _⟩ := register_ok hr
    exact h3.trans (QuietW.same h3.net.pending rfl (fun _ => rfl))

theorem closeSession_quietW {w w' : World Net υ} {c : ConnId} {e : Option Err} (hs : ideal srv)
    (h0 : ∀ i, w.net.pending i = []) (h : closeSession srv w c = .ok (w', e)) : QuietW w w' := by
  rcases closeSession_ok h with ⟨_, rfl, _⟩ | ⟨_, _, rfl, _⟩ | ⟨_, _, w1, n, hd, hw⟩
  · exact QuietW.refl h0
  · exact QuietW.refl h0
  · have h1 := deregister_quietW h0 hd
    have h2 := h1.trans (setSession_quietW (c := c) (s := none) h1.net.pending)
    exact h2.trans (withWriter_quietW (call := .sessionClosed) hs h2.net.pending (by simp [WriterCall.Panics])
      (fun _ => ⟨_, _, rfl, by simp⟩) hw)

theorem closeSessions_quietW (hs : ideal srv) {cs : List ConnId} : ∀ {w w' : World Net υ}
    {es : List (Option Err)}, (∀ i, w.net.pending i = []) → closeSessions srv w cs = .ok (w', es) →
    QuietW w w' := by
  induction cs with
  | nil =>
    intro w w' es h0 h
    rw [(closeSessions_nil h).1]
    exact QuietW.refl h0
  | cons c cs ih =>
    intro w w' es h0 h
    obtain ⟨w1, e, es', h1, h2, _⟩ := closeSessions_cons h
    have hq := closeSession_quietW hs h0 h1
    exact hq.trans (ih hq.net.pending h2)

/-- Unlinking a connection without running handlers. -/
theorem unlink_quietW {w w' : World Net υ} {c : ConnId} (hs : ideal srv)
    (h0 : ∀ i, w.net.pending i = []) (ht : (w.conns c).tasks < 1)
    (h : unlink srv w c = .ok w') : QuietW w w' := by
  obtain ⟨w1, n, net, e, hd, hc, rfl⟩ := unlink_ok h
  have h1 := deregister_quietW h0 hd
  have h2 := h1.trans (setSession_quietW (c := c) (s := none) h1.net.pending)
  rw [hs] at hc
  simp only [netSockets, Except.ok.injEq, Prod.mk.injEq] at hc
  rw [← hc.1]
  refine h2.trans ⟨⟨fun i => ⟨[], by simp [World.log, setSession, World.upd], by simp⟩, ?_, ?_⟩, ?_, fun _ => rfl⟩
  · exact h1.net.pending
  · intro i hi
    simp only [World.log, setSession, World.upd] at hi ⊢
    split_ifs at hi
    · exact hi
  · intro i hi hcon
    have : (w.conns i).tasks = ((setSession w1 c none).conns i).tasks := by rw [h2.tasks]
    by_cases hic : i = c
    · subst hic; omega
    · simp only [World.log, if_neg hic]
      exact hcon

theorem connClose_quietW {w w' : World Net υ} {c : ConnId} (hs : ideal srv)
    (h0 : ∀ i, w.net.pending i = []) (h : connClose srv w c = .ok w') : QuietW w w' := by
  have hd : QuietW w (w.upd c fun con => { con with isActive := false }) :=
    QuietW.same h0 rfl (Quiet.deactivate w c).tasks
  rcases connClose_ok h with ⟨_, rfl⟩ | ⟨_, ⟨ht, h⟩ | ⟨_, rfl⟩⟩
  · exact QuietW.refl h0
  · exact hd.trans (unlink_quietW hs hd.net.pending (by rw [hd.tasks]; exact ht) h)
  · exact hd

theorem runApi_quietW {w w' : World Net υ} {a : ApiCall} (hs : ideal srv)
    (h0 : ∀ i, w.net.pending i = []) (h : runApi srv w a = .ok w') : QuietW w w' := by
  cases a with
  | signal c name enc payload => obtain ⟨b, h⟩ := map_fst_ok h; exact signal_quietW hs h0 h
  | createSession c info => obtain ⟨b, h⟩ := map_fst_ok h; exact createSession_quietW hs h0 h
  | closeSession c => obtain ⟨b, h⟩ := map_fst_ok h; exact closeSession_quietW hs h0 h
  | close c => exact connClose_quietW hs h0 h
  | srvCloseSession key order =>
    obtain ⟨b, h⟩ := map_fst_ok h
    rcases srvCloseSession_ok h with ⟨_, rfl, _⟩ | ⟨_, _, _, _, _, _, h, _⟩
    · exact QuietW.refl h0
    · exact closeSessions_quietW hs h0 h

theorem runApis_quietW (hs : ideal srv) {as : List ApiCall} : ∀ {w w' : World Net υ},
    (∀ i, w.net.pending i = []) → runApis srv w as = .ok w' → QuietW w w' := by
  induction as with
  | nil =>
    intro w w' h0 h
    simp only [runApis, Except.ok.injEq] at h
    rw [← h]; exact QuietW.refl h0
  | cons a as ih =>
    intro w w' h0 h
    obtain ⟨w1, h1, h2⟩ := runApis_cons h
    have hq := runApi_quietW hs h0 h1
    exact hq.trans (ih hq.net.pending h2)

end Webwire
