import Verif.Props.Session2
import Verif.Props.Reply
import Mathlib.Logic.Relation

/-!
# How a connection ends (C76), and what handling leaves behind (C20, C59)
-/

set_option autoImplicit false

namespace Webwire
open Spec

variable {ν υ : Type} {srv : Server ν υ}

namespace Spec

/-- Sockets that do not come back: once a connection's socket was closed it is not connected, and nothing the server
does with any socket changes that. -/
structure StaysClosed (srv : Server ν υ) (c : ConnId) : Prop where
  getWriter : ∀ n i n' e, srv.sock.getWriter n i = .ok (n', e) → srv.sock.isConnected n c = false → srv.sock.isConnected n' c = false
  write : ∀ n i b n' e, (srv.sock.writer i).write n b = .ok (n', e) → srv.sock.isConnected n c = false → srv.sock.isConnected n' c = false
  flush : ∀ n i n' e, (srv.sock.writer i).close n = .ok (n', e) → srv.sock.isConnected n c = false → srv.sock.isConnected n' c = false
  close : ∀ n i n' e, srv.sock.close n i = .ok (n', e) → srv.sock.isConnected n c = false → srv.sock.isConnected n' c = false
  closed : ∀ n n' e, srv.sock.close n c = .ok (n', e) → srv.sock.isConnected n' c = false

/-- How often the server closed the socket of `c`. -/
def sockCloses (c : ConnId) (l : List Ev) : Nat := l.count (.sockClose c)

/-- How often `OnClientDisconnected` was called for `c`. -/
def disconnectCalls (c : ConnId) (l : List Ev) : Nat := l.count (.onClientDisconnected c)

/-- How often `OnClientConnected` was called for `c`. -/
def connectCalls (c : ConnId) (l : List Ev) : Nat := l.count (.onClientConnected c)

/-- Input that ends a connection: a read error, or bytes that are no message or do not fit the buffer. -/
def Ends (srv : Server ν υ) : Incoming → Prop
  | .failed _ => True
  | .data bs => bs.length ≤ srv.bufferSize.toNat → ¬ ∃ v, Grammar bs v

end Spec

/-! ## What does not close `c` -/

/-- Nothing happened to the liveness of `c`. -/
private structure Still (c : ConnId) (w w' : World ν υ) : Prop where
  tasks : (w'.conns c).tasks = (w.conns c).tasks
  active : (w'.conns c).isActive = (w.conns c).isActive
  closes : sockCloses c w'.trace = sockCloses c w.trace

private theorem Still.refl (c : ConnId) (w : World ν υ) : Still c w w := ⟨rfl, rfl, rfl⟩

private theorem Still.trans {c : ConnId} {w w' w'' : World ν υ} (h : Still c w w') (h' : Still c w' w'') : Still c w w'' :=
  ⟨h'.tasks.trans h.tasks, h'.active.trans h.active, h'.closes.trans h.closes⟩

private theorem Still.log {c : ConnId} (w : World ν υ) (e : Ev) (h : e ≠ .sockClose c) : Still c w (w.log e) :=
  ⟨rfl, rfl, by simp [sockCloses, World.log, List.count_append, h]⟩

private theorem Still.of_eq {c : ConnId} {w w' : World ν υ} (h : w'.conns = w.conns) (ht : w'.trace = w.trace) : Still c w w' :=
  ⟨by rw [h], by rw [h], by rw [ht]⟩

private theorem Still.upd {c i : ConnId} (w : World ν υ) (f : Conn → Conn)
    (hf : i = c → ∀ x, (f x).tasks = x.tasks ∧ (f x).isActive = x.isActive) : Still c w (w.upd i f) := by
  by_cases h : c = i
  · subst h
    exact ⟨by simp [World.upd, (hf rfl _).1], by simp [World.upd, (hf rfl _).2], rfl⟩
  · exact ⟨by simp [World.upd, h], by simp [World.upd, h], rfl⟩

private theorem Still.setSession {c i : ConnId} (w : World ν υ) (s : Option Session) : Still c w (setSession w i s) :=
  Still.upd w _ fun _ _ => ⟨rfl, rfl⟩

private theorem Still.withWriter {c i : ConnId} {w w' : World ν υ} {f} {e : Option Err}
    (h : withWriter srv w i f = .ok (w', e)) : Still c w w' := by
  rcases withWriter_ok h with ⟨net, er, _, rfl, _⟩ | ⟨net, net', _, _, rfl⟩
  · exact .of_eq rfl rfl
  · exact ⟨rfl, rfl, by simp [sockCloses, World.log, List.count_append]⟩

private theorem Still.register {c i : ConnId} {w w' : World ν υ} {e : Option Err} (h : register srv w i = .ok (w', e)) :
    Still c w w' := by
  obtain ⟨s, _, rfl, _⟩ := register_ok h
  exact .of_eq rfl rfl

private theorem Still.deregister {c i : ConnId} {w w' : World ν υ} {d : Bool} {n : Int}
    (h : deregister srv w i d = .ok (w', n)) : Still c w w' := by
  rcases deregister_ok h with ⟨_, rfl, _⟩ | ⟨s, _, _, ⟨_, rfl⟩ | ⟨_, _, _, rfl⟩⟩
  · exact .refl _ _
  · exact .of_eq rfl rfl
  · refine ⟨rfl, rfl, ?_⟩
    simp [sockCloses, World.log, List.count_append]

private theorem Still.signal {c i : ConnId} {w w' : World ν υ} {name : Bytes} {enc : Encoding} {payload : Bytes}
    {e : Option Err} (h : signal srv w i name enc payload = .ok (w', e)) : Still c w w' := by
  rcases signal_ok h with ⟨rfl, _⟩ | h
  · exact .refl _ _
  · exact .withWriter h

private theorem Still.createSession {c i : ConnId} {w w' : World ν υ} {info : Option Nat} {e : Option Err}
    (h : createSession srv w i info = .ok (w', e)) : Still c w w' := by
  rcases createSession_ok h with ⟨_, rfl, _⟩ | ⟨_, _, rfl, _⟩ | ⟨_, _, _, rfl, _⟩ |
    ⟨_, _, _, user, s, w1, en, _, hn, hrest⟩
  · exact .refl _ _
  · exact .refl _ _
  · exact .refl _ _
  · have h1 : Still c w w1 := by
      refine Still.trans (w' := { w with user := user }) (.of_eq rfl rfl) ?_
      rcases notifySessionCreated_ok hn with ⟨rfl, _⟩ | ⟨bs, _, hn⟩
      · exact .refl _ _
      · exact .withWriter hn
    rcases hrest with ⟨er, _, rfl, _⟩ | ⟨_, _, w2, er, hr, rfl⟩
    · exact h1
    · refine (h1.trans (.setSession _ _)).trans ((Still.register hr).trans ?_)
      exact Still.trans (w' := { w2 with user := (srv.hooks.onSessionCreated w2.user i s).1 }) (.of_eq rfl rfl)
        (.log _ (.onSessionCreated i s.key) (by simp))

private theorem Still.closeSession {c i : ConnId} {w w' : World ν υ} {e : Option Err}
    (h : closeSession srv w i = .ok (w', e)) : Still c w w' := by
  rcases closeSession_ok h with ⟨_, rfl, _⟩ | ⟨_, _, rfl, _⟩ | ⟨_, _, w1, n, hd, hw⟩
  · exact .refl _ _
  · exact .refl _ _
  · exact ((Still.deregister hd).trans (.setSession _ _)).trans (.withWriter hw)

private theorem Still.closeSessions {c : ConnId} {cs : List ConnId} : ∀ {w w' : World ν υ} {es : List (Option Err)},
    closeSessions srv w cs = .ok (w', es) → Still c w w' := by
  induction cs with
  | nil => intro w w' es h; rw [(closeSessions_nil h).1]; exact .refl _ _
  | cons i cs ih =>
    intro w w' es h
    obtain ⟨w1, e, es', h1, h2, _⟩ := closeSessions_cons h
    exact (Still.closeSession h1).trans (ih h2)

private theorem Still.srvCloseSession {c : ConnId} {w w' : World ν υ} {key : Bytes} {order : List ConnId} {r}
    (h : srvCloseSession srv w key order = .ok (w', r)) : Still c w w' := by
  rcases srvCloseSession_ok h with ⟨_, rfl, _⟩ | ⟨_, _, _, _, _, _, h, _⟩
  · exact .refl _ _
  · exact .closeSessions h

private theorem Still.fulfillMsg {c i : ConnId} {w w' : World ν υ} {m : Msg} {enc : Encoding}
    {payload : Bytes} (h : fulfillMsg srv w i m enc payload = .ok w') : Still c w w' := by
  obtain ⟨e, h⟩ := fulfillMsg_ok h
  exact .withWriter h

private theorem Still.failMsg {c i : ConnId} {w w' : World ν υ} {m : Msg} {re : ReplyErr}
    (h : failMsg srv w i m re = .ok w') : Still c w w' := by
  rcases failMsg_ok h with ⟨_, rfl⟩ | ⟨_, ⟨e, code, text, _, h⟩ | ⟨_, _, _, _, rfl⟩ | ⟨_, _, _, h⟩⟩
  · exact .refl _ _
  · exact .withWriter h
  · exact .refl _ _
  · exact .withWriter h

/-! ## Once gone, for ever gone -/

/-- `c` is disconnected and has no session. -/
private def Gone (srv : Server ν υ) (c : ConnId) (w : World ν υ) : Prop :=
  srv.sock.isConnected w.net c = false ∧ (w.conns c).session = none

private theorem forgetFrame (c : ConnId) (hs : StaysClosed srv c) :
    Frame srv fun w w' => srv.sock.isConnected w.net c = false → srv.sock.isConnected w'.net c = false where
  refl _ := id
  trans h h' := h' ∘ h
  getWriter w i net e h := hs.getWriter _ _ _ _ h
  write w i b net e h := hs.write _ _ _ _ _ h
  flush w i net e h := hs.flush _ _ _ _ h
  close w i net e _ h := hs.close _ _ _ _ h
  generate _ := id
  event _ _ _ _ _ := id
  conn _ _ _ _ := id
  ops _ _ _ := id
  leave w i d w1 n _ h := by
    rcases deregister_ok h with ⟨_, rfl, _⟩ | ⟨s, _, _, ⟨_, rfl⟩ | ⟨_, _, _, rfl⟩⟩ <;> exact id
  create w w1 i s w2 e _ _ _ h _ _ _ hr := by
    obtain ⟨_, _, rfl, _⟩ := register_ok hr
    exact h
  restore w i s w1 _ _ _ _ hr := by
    obtain ⟨_, _, rfl, _⟩ := register_ok hr
    exact id

private theorem setSession_none_gone {c i : ConnId} {w : World ν υ} (h : (w.conns c).session = none) :
    ((setSession w i none).conns c).session = none := by
  simp only [setSession, World.upd]
  split_ifs
  · rfl
  · exact h

private theorem withWriter_conns {i : ConnId} {w w' : World ν υ} {f} {e : Option Err}
    (h : withWriter srv w i f = .ok (w', e)) : w'.conns = w.conns := by
  rcases withWriter_ok h with ⟨net, er, _, rfl, _⟩ | ⟨net, net', _, _, rfl⟩ <;> rfl

private theorem closeSession_session {c i : ConnId} {w w' : World ν υ} {e : Option Err}
    (h : closeSession srv w i = .ok (w', e)) (hg : (w.conns c).session = none) : (w'.conns c).session = none := by
  rcases closeSession_ok h with ⟨_, rfl, _⟩ | ⟨_, _, rfl, _⟩ | ⟨_, _, w1, n, hd, hw⟩
  · exact hg
  · exact hg
  · rw [withWriter_conns hw]
    exact setSession_none_gone (by rw [deregister_conns hd]; exact hg)

private theorem closeSessions_session {c : ConnId} {cs : List ConnId} : ∀ {w w' : World ν υ} {es : List (Option Err)},
    closeSessions srv w cs = .ok (w', es) → (w.conns c).session = none → (w'.conns c).session = none := by
  induction cs with
  | nil => intro w w' es h hg; rw [(closeSessions_nil h).1]; exact hg
  | cons i cs ih =>
    intro w w' es h hg
    obtain ⟨w1, e, es', h1, h2, _⟩ := closeSessions_cons h
    exact ih h2 (closeSession_session h1 hg)

private theorem unlink_session {c i : ConnId} {w w' : World ν υ} (h : unlink srv w i = .ok w') :
    (i = c ∨ (w.conns c).session = none) → (w'.conns c).session = none := by
  obtain ⟨w1, n, net, e, hd, _, rfl⟩ := unlink_ok h
  rintro (rfl | hg)
  · simp [World.log, setSession, World.upd]
  · exact setSession_none_gone (by rw [deregister_conns hd]; exact hg)

private theorem connClose_session {c i : ConnId} {w w' : World ν υ} (h : connClose srv w i = .ok w')
    (hg : (w.conns c).session = none) : (w'.conns c).session = none := by
  have e : ((w.upd i fun con => { con with isActive := false }).conns c).session = none := by
    simp only [World.upd]
    split_ifs with hi
    · rw [← hi]; exact hg
    · exact hg
  rcases connClose_ok h with ⟨_, rfl⟩ | ⟨_, ⟨_, h⟩ | ⟨_, rfl⟩⟩
  · exact hg
  · exact unlink_session h (.inr e)
  · exact e

private theorem Gone.runApi {c : ConnId} (hs : StaysClosed srv c) {w w' : World ν υ} {a : ApiCall}
    (h : runApi srv w a = .ok w') (hg : Gone srv c w) : Gone srv c w' := by
  refine ⟨(forgetFrame c hs).runApi h hg.1, ?_⟩
  cases a with
  | signal i name enc payload =>
    obtain ⟨b, h⟩ := map_fst_ok h
    rcases signal_ok h with ⟨rfl, _⟩ | h
    · exact hg.2
    · rw [withWriter_conns h]; exact hg.2
  | createSession i info =>
    obtain ⟨b, h⟩ := map_fst_ok h
    rcases createSession_ok h with ⟨_, rfl, _⟩ | ⟨_, _, rfl, _⟩ | ⟨_, _, _, rfl, _⟩ |
      ⟨_, hcon, _, user, s, w1, en, _, hn, hrest⟩
    · exact hg.2
    · exact hg.2
    · exact hg.2
    · have hne : c ≠ i := by rintro rfl; rw [hg.1] at hcon; cases hcon
      have h1 : w1.conns = w.conns := notifySessionCreated_conns (w := { w with user := user }) hn
      rcases hrest with ⟨er, _, rfl, _⟩ | ⟨_, _, w2, er, hr, rfl⟩
      · rw [h1]; exact hg.2
      · obtain ⟨_, _, rfl, _⟩ := register_ok hr
        simp only [World.log, setSession, World.upd, if_neg hne, h1]
        exact hg.2
  | closeSession i => obtain ⟨b, h⟩ := map_fst_ok h; exact closeSession_session h hg.2
  | close i => exact connClose_session h hg.2
  | srvCloseSession key order =>
    obtain ⟨b, h⟩ := map_fst_ok h
    rcases srvCloseSession_ok h with ⟨_, rfl, _⟩ | ⟨_, _, _, _, _, _, h, _⟩
    · exact hg.2
    · exact closeSessions_session h hg.2

/-! ## The invariant -/

/-- The socket of `c` has been closed once more than `n` times exactly if the connection was closed and no handler is running;
then it has no session either. -/
private structure Inv (srv : Server ν υ) (c : ConnId) (n : Nat) (w : World ν υ) : Prop where
  tasks : 0 ≤ (w.conns c).tasks
  closes : sockCloses c w.trace = n + if (w.conns c).isActive = true ∨ 1 ≤ (w.conns c).tasks then 0 else 1
  gone : StaysClosed srv c → ¬ ((w.conns c).isActive = true ∨ 1 ≤ (w.conns c).tasks) → Gone srv c w

private theorem Inv.still {c : ConnId} {n : Nat} {w w' : World ν υ} (hi : Inv srv c n w) (h : Still c w w')
    (hg : StaysClosed srv c → Gone srv c w → Gone srv c w') : Inv srv c n w' :=
  ⟨by rw [h.tasks]; exact hi.tasks, by rw [h.closes, hi.closes, h.tasks, h.active],
   fun hs hl => hg hs (hi.gone hs (by rw [← h.tasks, ← h.active]; exact hl))⟩

/-- While a handler runs. -/
private theorem Inv.still_live {c : ConnId} {n : Nat} {w w' : World ν υ} (hi : Inv srv c n w) (h : Still c w w')
    (ht : 1 ≤ (w.conns c).tasks) : Inv srv c n w' ∧ (w'.conns c).tasks = (w.conns c).tasks :=
  ⟨⟨by rw [h.tasks]; exact hi.tasks, by rw [h.closes, hi.closes, h.tasks, h.active],
   fun _ hl => absurd (.inr (by rw [h.tasks]; exact ht)) hl⟩, h.tasks⟩

private theorem sockCloses_log (c i : ConnId) (l : List Ev) :
    sockCloses c (l ++ [.sockClose i]) = sockCloses c l + if i = c then 1 else 0 := by
  unfold sockCloses
  rw [List.count_append]
  by_cases h : i = c
  · subst h; simp
  · simp [h]

private theorem Inv.connClose {c i : ConnId} {n : Nat} {w w' : World ν υ} (hi : Inv srv c n w)
    (h : connClose srv w i = .ok w') : Inv srv c n w' ∧ (w'.conns c).tasks = (w.conns c).tasks := by
  have ht : (w'.conns c).tasks = (w.conns c).tasks := (Quiet.connClose h).tasks c
  have hg : StaysClosed srv c → Gone srv c w → Gone srv c w' := fun hs hg =>
    Gone.runApi hs (a := .close i) h hg
  refine ⟨?_, ht⟩
  by_cases hic : i = c
  · subst hic
    rcases connClose_ok h with ⟨_, rfl⟩ | ⟨ha, ⟨h1, hu⟩ | ⟨h1, rfl⟩⟩
    · exact hi
    · have hc := hi.closes
      rw [ha] at hc
      simp only [true_or, if_true, Nat.add_zero] at hc
      have h0 := hi.tasks
      have hact : (w'.conns i).isActive = false := by
        cases hx : (w'.conns i).isActive with
        | false => rfl
        | true =>
          have := (Quiet.unlink hu).active i hx
          simp [World.upd] at this
      obtain ⟨w1, m, net, e, hd, hcl, rfl⟩ := unlink_ok hu
      have hs1 := (Still.deregister (c := i) hd).closes
      have htr : (w.upd i fun con => { con with isActive := false }).trace = w.trace := rfl
      rw [htr] at hs1
      refine ⟨by rw [ht]; exact h0, ?_, ?_⟩
      · rw [hact, ht, if_neg (by simp; omega)]
        show sockCloses i (w1.trace ++ [.sockClose i]) = _
        rw [sockCloses_log, hs1, hc, if_pos rfl]
      · intro hst _
        exact ⟨hst.closed _ _ _ hcl, by simp [World.log, setSession, World.upd]⟩
    · have hc := hi.closes
      rw [ha] at hc
      simp only [true_or, if_true, Nat.add_zero] at hc
      refine ⟨by rw [ht]; exact hi.tasks, ?_, ?_⟩
      · rw [ht, if_pos (.inr (by omega))]
        exact hc
      · intro _ hl
        exact absurd (.inr (by rw [ht]; omega)) hl
  · refine hi.still ⟨ht, ?_, ?_⟩ hg
    · rcases connClose_ok h with ⟨_, rfl⟩ | ⟨_, ⟨_, hu⟩ | ⟨_, rfl⟩⟩
      · rfl
      · obtain ⟨w1, m, net, e, hd, _, rfl⟩ := unlink_ok hu
        have := (Still.deregister (c := c) hd).active
        simp only [World.upd, if_neg (Ne.symm hic)] at this
        simp only [World.log, setSession, World.upd, if_neg (Ne.symm hic)]
        exact this
      · simp [World.upd, Ne.symm hic]
    · rcases connClose_ok h with ⟨_, rfl⟩ | ⟨_, ⟨_, hu⟩ | ⟨_, rfl⟩⟩
      · rfl
      · obtain ⟨w1, m, net, e, hd, _, rfl⟩ := unlink_ok hu
        show sockCloses c (w1.trace ++ [.sockClose i]) = _
        rw [sockCloses_log, (Still.deregister (c := c) hd).closes, if_neg hic]
        rfl
      · rfl

private theorem Inv.runApi {c : ConnId} {n : Nat} {w w' : World ν υ} {a : ApiCall} (hi : Inv srv c n w)
    (h : runApi srv w a = .ok w') : Inv srv c n w' ∧ (w'.conns c).tasks = (w.conns c).tasks := by
  have hg : StaysClosed srv c → Gone srv c w → Gone srv c w' := fun hs hg => Gone.runApi hs h hg
  cases a with
  | signal i name enc payload =>
    obtain ⟨b, h⟩ := map_fst_ok h; have := Still.signal (c := c) h; exact ⟨hi.still this hg, this.tasks⟩
  | createSession i info =>
    obtain ⟨b, h⟩ := map_fst_ok h; have := Still.createSession (c := c) h; exact ⟨hi.still this hg, this.tasks⟩
  | closeSession i =>
    obtain ⟨b, h⟩ := map_fst_ok h; have := Still.closeSession (c := c) h; exact ⟨hi.still this hg, this.tasks⟩
  | close i => exact hi.connClose h
  | srvCloseSession key order =>
    obtain ⟨b, h⟩ := map_fst_ok h; have := Still.srvCloseSession (c := c) h; exact ⟨hi.still this hg, this.tasks⟩

private theorem Inv.runApis {c : ConnId} {n : Nat} {as : List ApiCall} : ∀ {w w' : World ν υ}, Inv srv c n w →
    runApis srv w as = .ok w' → Inv srv c n w' ∧ (w'.conns c).tasks = (w.conns c).tasks := by
  induction as with
  | nil =>
    intro w w' hi h
    simp only [Webwire.runApis, Except.ok.injEq] at h
    subst h
    exact ⟨hi, rfl⟩
  | cons a as ih =>
    intro w w' hi h
    obtain ⟨w1, h1, h2⟩ := runApis_cons h
    obtain ⟨i1, t1⟩ := hi.runApi h1
    obtain ⟨i2, t2⟩ := ih i1 h2
    exact ⟨i2, t2.trans t1⟩

private theorem Inv.deregisterHandler {c : ConnId} {n : Nat} {w w' : World ν υ} (hi : Inv srv c n w)
    (ht : 1 ≤ (w.conns c).tasks) (h : deregisterHandler srv w c = .ok w') :
    Inv srv c n w' ∧ (w'.conns c).tasks = (w.conns c).tasks - 1 := by
  obtain ⟨_, w1, h1, _, rfl⟩ := deregisterHandler_ok h
  have i0 : Inv srv c n (opsDone w) := ⟨hi.tasks, hi.closes, hi.gone⟩
  have hup : ∀ w1 : World ν υ, Inv srv c n w1 ∧ (w1.conns c).tasks = (w.conns c).tasks - 1 →
      Inv srv c n (w1.upd c fun con => { con with slots := if con.limit > 1 then con.slots - 1 else con.slots }) ∧
      ((w1.upd c fun con => { con with slots := if con.limit > 1 then con.slots - 1 else con.slots }).conns c).tasks =
        (w.conns c).tasks - 1 := fun w1 hi1 =>
    ⟨hi1.1.still (.upd _ _ fun _ _ => ⟨rfl, rfl⟩) fun _ hg => ⟨hg.1, by simpa [World.upd] using hg.2⟩,
     by simpa [World.upd] using hi1.2⟩
  apply hup
  have hc := i0.closes
  rw [if_pos (.inr ht)] at hc
  rcases deregisterTask_ok h1 with ⟨ha, ht1, hu⟩ | ⟨hn, rfl⟩
  · have hq := Quiet.unlink hu
    have ht' : (w1.conns c).tasks = (w.conns c).tasks - 1 := by rw [hq.tasks]; simp [World.upd, opsDone]
    have ht0 : (w.conns c).tasks = 1 := by
      have : (opsDone w).conns = w.conns := rfl
      rw [this] at ht1; omega
    have hact : (w1.conns c).isActive = false := by
      cases hx : (w1.conns c).isActive with
      | false => rfl
      | true =>
        have := hq.active c hx
        simp only [World.upd, if_true] at this
        rw [ha] at this; cases this
    obtain ⟨w2, m, net, e, hd, hcl, rfl⟩ := unlink_ok hu
    refine ⟨⟨by rw [ht']; omega, ?_, ?_⟩, ht'⟩
    · rw [hact, ht', if_neg (by simp; omega)]
      show sockCloses c (w2.trace ++ [.sockClose c]) = _
      rw [sockCloses_log, (Still.deregister (c := c) hd).closes, if_pos rfl]
      exact congrArg (· + 1) hc
    · intro hst _
      exact ⟨hst.closed _ _ _ hcl, by simp [World.log, setSession, World.upd]⟩
  · have e1 : (((opsDone w).upd c fun con => { con with tasks := con.tasks - 1 }).conns c).tasks = (w.conns c).tasks - 1 := by
      simp [World.upd, opsDone]
    have e2 : (((opsDone w).upd c fun con => { con with tasks := con.tasks - 1 }).conns c).isActive = (w.conns c).isActive := by
      simp [World.upd, opsDone]
    have hlive : (w.conns c).isActive = true ∨ 1 ≤ (w.conns c).tasks - 1 := by
      by_contra hx
      push Not at hx
      apply hn
      refine ⟨?_, ?_⟩
      · have : ((opsDone w).conns c).isActive = (w.conns c).isActive := rfl
        rw [this]; simpa using hx.1
      · have : ((opsDone w).conns c).tasks = (w.conns c).tasks := rfl
        rw [this]; omega
    refine ⟨⟨by rw [e1]; omega, ?_, ?_⟩, e1⟩
    · rw [e1, e2, if_pos hlive]
      exact hc
    · intro _ hl
      rw [e1, e2] at hl
      exact absurd hlive hl

private theorem Inv.log {c : ConnId} {n : Nat} {w : World ν υ} (hi : Inv srv c n w) (e : Ev) (he : e ≠ .sockClose c) :
    Inv srv c n (w.log e) := hi.still (.log w e he) fun _ h => h

private theorem Inv.user {c : ConnId} {n : Nat} {w : World ν υ} (hi : Inv srv c n w) (u : υ) :
    Inv srv c n { w with user := u } := hi.still (.of_eq rfl rfl) fun _ h => h

private theorem Inv.registered {c : ConnId} {n : Nat} {w : World ν υ} (hi : Inv srv c n w)
    (ha : (w.conns c).isActive = true) : Inv srv c n (registered w c) ∧ 1 ≤ ((registered w c).conns c).tasks ∧
      ((registered w c).conns c).tasks = (w.conns c).tasks + 1 := by
  have e1 : ((Webwire.registered w c).conns c).tasks = (w.conns c).tasks + 1 := by
    simp [Webwire.registered, registerTask, World.upd]
  have e2 : ((Webwire.registered w c).conns c).isActive = true := by
    simpa [Webwire.registered, registerTask, World.upd] using ha
  have h0 := hi.tasks
  refine ⟨⟨by rw [e1]; omega, ?_, fun _ hl => absurd (.inl e2) hl⟩, by rw [e1]; omega, e1⟩
  have := hi.closes
  rw [if_pos (.inl ha)] at this
  rw [if_pos (.inl e2)]
  exact this

private theorem Inv.handleMessage {c : ConnId} {n : Nat} {w w' : World ν υ} {m : Msg} (hi : Inv srv c n w)
    (h : handleMessage srv w c m = .ok w') :
    Inv srv c n w' ∧ (w'.conns c).tasks = (w.conns c).tasks := by
  have hrel : ∀ {w1 : World ν υ}, Inv srv c n w1 → Inv srv c n (releaseMsg w1) := fun h => h.log _ (by simp)
  rcases handleMessage_ok h with ⟨_, rfl⟩ | ⟨_, w1, b, hr, hb⟩
  · exact ⟨hrel hi, rfl⟩
  · rcases registerHandler_ok hr with ⟨_, rfl, rfl⟩ | ⟨ha, _, ⟨_, _, rfl, hf⟩ | ⟨_, rfl, rfl⟩⟩
    · rcases hb with ⟨_, rfl⟩ | ⟨hc, _⟩
      · exact ⟨hrel hi, rfl⟩
      · cases hc
    · rcases hb with ⟨_, rfl⟩ | ⟨hc, _⟩
      · obtain ⟨net, net', e, _, _, rfl⟩ := failMsgShutdown_ok hf
        have hs : Still c w (slotTaken w c) := .upd _ _ fun _ _ => ⟨rfl, rfl⟩
        have ha' : ((slotTaken w c).conns c).isActive = true := by rw [hs.active]; exact ha
        have hst : Still c w ({ slotTaken w c with net := net' }.log (.sent c)) :=
          hs.trans (Still.trans (w' := { slotTaken w c with net := net' }) (.of_eq rfl rfl) (by apply Still.log; simp))
        exact ⟨hrel ⟨by rw [hst.tasks]; exact hi.tasks, by rw [hst.closes, hi.closes, hst.tasks, hst.active],
          fun _ hl => absurd (.inl (by rw [hst.active]; exact ha)) hl⟩, hst.tasks⟩
      · cases hc
    · rcases hb with ⟨hc, _⟩ | ⟨_, hb⟩
      · cases hc
      · obtain ⟨i1, t1, e1⟩ := hi.registered ha
        rcases hb with ⟨_, hh⟩ | ⟨_, hh⟩ | ⟨_, hh⟩ | ⟨_, hh⟩ | ⟨_, w2, hd, rfl⟩
        · obtain ⟨w2, w3, hr, hd, rfl⟩ := handleSignal_ok hh
          obtain ⟨i2, t2⟩ := ((i1.log _ (by simp)).user _).runApis hr
          have fin := i2.deregisterHandler (by rw [t2]; exact t1) hd
          exact ⟨hrel fin.1, fin.2.trans (by rw [t2]; exact by first | omega | exact (by have := e1; simp only [World.log] at *; omega))⟩
        · obtain ⟨w2, w3, w4, hr, hf, hd, rfl⟩ := handleRequest_ok hh
          obtain ⟨i2, t2⟩ := ((i1.log _ (by simp)).user _).runApis hr
          have t2' : 1 ≤ (w2.conns c).tasks := by rw [t2]; exact t1
          have i3 : Inv srv c n w3 ∧ (w3.conns c).tasks = (w2.conns c).tasks := by
            rcases hf with ⟨_, hf⟩ | ⟨_, hf⟩
            · exact i2.still_live (.fulfillMsg hf) t2'
            · exact i2.still_live (.failMsg hf) t2'
          have fin := i3.1.deregisterHandler (by rw [i3.2]; exact t2') hd
          exact ⟨hrel fin.1, fin.2.trans (by rw [i3.2, t2]; exact (by have := e1; simp only [World.log] at *; omega))⟩
        · obtain ⟨w2, w3, hc, hd, rfl⟩ := handleSessionRestore_ok hh
          have hlk : Still c (Webwire.registered w c) (lookedUp srv (Webwire.registered w c) (m.payload.data.view m.buf)) :=
            ⟨rfl, rfl, by simp [lookedUp, sockCloses, World.log, List.count_append]⟩
          have hst : Still c (Webwire.registered w c) w2 := by
            rcases hc with ⟨_, h⟩ | ⟨_, _, h⟩ | ⟨_, _, _, h⟩ | ⟨_, _, _, h⟩ | ⟨r, _, _, _, _, h⟩ |
              ⟨r, encoded, w1, _, _, _, _, hr, h⟩
            · exact .failMsg h
            · exact .failMsg h
            · exact hlk.trans (.failMsg h)
            · exact hlk.trans (.failMsg h)
            · exact hlk.trans (.failMsg h)
            · exact hlk.trans ((Still.setSession _ _).trans ((Still.register hr).trans (.fulfillMsg h)))
          obtain ⟨i2, t2⟩ := i1.still_live hst t1
          have fin := i2.deregisterHandler (by rw [t2]; exact t1) hd
          exact ⟨hrel fin.1, fin.2.trans (by rw [t2]; exact by first | omega | exact (by have := e1; simp only [World.log] at *; omega))⟩
        · obtain ⟨w2, w3, hc, hd, rfl⟩ := handleSessionClosure_ok hh
          have hst : Still c (Webwire.registered w c) w2 := by
            rcases hc with ⟨_, h⟩ | ⟨_, _, h⟩ | ⟨_, _, w1, n, hd, h⟩
            · exact .failMsg h
            · exact .fulfillMsg h
            · exact (Still.deregister hd).trans ((Still.setSession _ _).trans (.fulfillMsg h))
          obtain ⟨i2, t2⟩ := i1.still_live hst t1
          have fin := i2.deregisterHandler (by rw [t2]; exact t1) hd
          exact ⟨hrel fin.1, fin.2.trans (by rw [t2]; exact by first | omega | exact (by have := e1; simp only [World.log] at *; omega))⟩
        · have fin := i1.deregisterHandler t1 hd
          exact ⟨hrel fin.1, fin.2.trans (by omega)⟩

private theorem Inv.disconnect {c : ConnId} {n : Nat} {w w' : World ν υ} (hi : Inv srv c n w)
    (h : disconnect srv w c = .ok w') :
    Inv srv c n w' ∧ (w'.conns c).tasks = (w.conns c).tasks := by
  obtain ⟨w1, h1, h2⟩ := disconnect_ok h
  obtain ⟨i1, t1⟩ := (hi.log .msgClose (by simp)).connClose h1
  obtain ⟨i2, t2⟩ := ((i1.log (.onClientDisconnected c) (by simp)).user _).runApis h2
  exact ⟨i2, t2.trans t1⟩

private theorem Inv.serve {c : ConnId} {n : Nat} {input : List Incoming} : ∀ {w w' : World ν υ}, Inv srv c n w →
    serve srv w c input = .ok w' →
    Inv srv c n w' ∧ (w'.conns c).tasks = (w.conns c).tasks := by
  induction input with
  | nil =>
    intro w w' hi h
    simp only [Webwire.serve, Except.ok.injEq] at h
    rw [← h]; exact ⟨hi, rfl⟩
  | cons i rest ih =>
    intro w w' hi h
    cases i with
    | failed b => exact hi.disconnect h
    | data bs =>
      unfold Webwire.serve at h
      obtain ⟨⟨m, tp, e⟩, h1, h⟩ := bind_ok h
      dsimp only at h
      by_cases hc : e ≠ none ∨ tp = false
      · rw [if_pos hc] at h; exact hi.disconnect h
      · rw [if_neg hc] at h
        obtain ⟨w1, h2, h⟩ := bind_ok h
        obtain ⟨i1, t1⟩ := hi.handleMessage h2
        obtain ⟨i2, t2⟩ := ih i1 h
        exact ⟨i2, t2.trans t1⟩

/-! ## Tasks stay as they are -/

private theorem serve_balanced {c : ConnId} {input : List Incoming} : ∀ {w w' : World ν υ}, w.shutdown = false →
    serve srv w c input = .ok w' → Back w w' := by
  have hdis : ∀ {w w' : World ν υ}, disconnect srv w c = .ok w' → Back w w' := by
    intro w w' h
    obtain ⟨w1, h1, h2⟩ := disconnect_ok h
    have b1 : Back w w1 := (Back.refl w).log.trans (Quiet.connClose h1).back
    exact b1.trans ((Back.hook _ _ _).trans (Quiet.runApis h2).back)
  induction input with
  | nil =>
    intro w w' _ h
    simp only [Webwire.serve, Except.ok.injEq] at h
    rw [← h]; exact .refl _
  | cons i rest ih =>
    intro w w' hsd h
    cases i with
    | failed b => exact hdis h
    | data bs =>
      unfold Webwire.serve at h
      obtain ⟨⟨m, tp, e⟩, h1, h⟩ := bind_ok h
      dsimp only at h
      by_cases hc : e ≠ none ∨ tp = false
      · rw [if_pos hc] at h; exact hdis h
      · rw [if_neg hc] at h
        obtain ⟨w1, h2, h⟩ := bind_ok h
        have b := handleMessage_back hsd h2
        exact b.trans (ih (by rw [b.shutdown]; exact hsd) h)

/-! ## The hooks that begin and end a connection -/

private theorem ends_iff {i : Incoming} : Ends srv i ↔ (∃ b, i = .failed b) ∨
    ∃ bs, i = .data bs ∧ (bs.length ≤ srv.bufferSize.toNat → ¬ ∃ v, Grammar bs v) := by
  cases i <;> simp [Ends]

private theorem count_of_hookCalls {e : Ev} (he : isMsgHook e = true) (l : List Ev) : l.count e = (hookCalls l).count e := by
  unfold hookCalls
  rw [List.count_filter he]

private theorem expectedHooks_no_end (a s : Bool) (c i : ConnId) (v : View) :
    (expectedHooks a s c v).count (.onClientDisconnected i) = 0 ∧ (expectedHooks a s c v).count (.onClientConnected i) = 0 := by
  unfold expectedHooks
  split_ifs <;> simp

private theorem serve_ends {c : ConnId} {input : List Incoming} : ∀ {w w' : World ν υ}, serve srv w c input = .ok w' →
    connectCalls c w'.trace = connectCalls c w.trace ∧
    ((∃ i ∈ input, Ends srv i) → disconnectCalls c w'.trace = disconnectCalls c w.trace + 1 ∧ (w'.conns c).isActive = false) ∧
    ((∀ i ∈ input, ¬ Ends srv i) → disconnectCalls c w'.trace = disconnectCalls c w.trace) := by
  have hdis : ∀ {w w' : World ν υ}, disconnect srv w c = .ok w' →
      connectCalls c w'.trace = connectCalls c w.trace ∧
      disconnectCalls c w'.trace = disconnectCalls c w.trace + 1 ∧ (w'.conns c).isActive = false := by
    intro w w' h
    obtain ⟨l1, l2, e, p1, p2, _, _, ina⟩ := disconnect_trace h
    have z : ∀ (l : List Ev), (∀ e ∈ l, Plain e) →
        l.count (.onClientConnected c) = 0 ∧ l.count (.onClientDisconnected c) = 0 := fun l hl =>
      ⟨List.count_eq_zero.mpr fun hm => hl _ hm, List.count_eq_zero.mpr fun hm => hl _ hm⟩
    refine ⟨?_, ?_, ina⟩
    · unfold connectCalls
      rw [e]
      simp [List.count_append, z l1 p1, z l2 p2]
    · unfold disconnectCalls
      rw [e]
      simp [List.count_append, z l1 p1, z l2 p2]
  induction input with
  | nil =>
    intro w w' h
    simp only [Webwire.serve, Except.ok.injEq] at h
    subst h
    exact ⟨rfl, by simp, by simp⟩
  | cons i rest ih =>
    intro w w' h
    by_cases hE : Ends srv i
    · have hd : disconnect srv w c = .ok w' := by
        rcases ends_iff.mp hE with ⟨b, rfl⟩ | ⟨bs, rfl, hbad⟩
        · exact h
        · rw [serve_malformed hbad] at h; exact h
      obtain ⟨h0, h1, h2⟩ := hdis hd
      exact ⟨h0, fun _ => ⟨h1, h2⟩, fun hn => absurd hE (hn i (by simp))⟩
    · cases i with
      | failed b => exact absurd trivial hE
      | data bs =>
        have hx : bs.length ≤ srv.bufferSize.toNat ∧ ∃ v, Grammar bs v := by
          by_contra hc
          exact hE fun hf hg => hc ⟨hf, hg⟩
        obtain ⟨hfit, v, hg⟩ := hx
        obtain ⟨m, h1, h2, _, _, h4⟩ := serve_grammar (srv := srv) (w := w) (c := c) (rest := rest) hg hfit
        rw [h4] at h
        obtain ⟨w1, h5, h⟩ := bind_ok h
        have hh := handleMessage_hooks h1 h2 h5
        have ec : connectCalls c w1.trace = connectCalls c w.trace := by
          unfold connectCalls
          rw [count_of_hookCalls rfl, hh, List.count_append, (expectedHooks_no_end _ _ _ _ _).2, ← count_of_hookCalls rfl]
          rfl
        have ed : disconnectCalls c w1.trace = disconnectCalls c w.trace := by
          unfold disconnectCalls
          rw [count_of_hookCalls rfl, hh, List.count_append, (expectedHooks_no_end _ _ _ _ _).1, ← count_of_hookCalls rfl]
          rfl
        obtain ⟨i0, i1, i2⟩ := ih h
        refine ⟨i0.trans ec, ?_, ?_⟩
        · rintro ⟨j, hj, hje⟩
          rcases List.mem_cons.mp hj with rfl | hj
          · exact absurd hje hE
          · obtain ⟨a, b⟩ := i1 ⟨j, hj, hje⟩
            exact ⟨by rw [a, ed], b⟩
        · intro hn
          rw [i2 fun j hj => hn j (List.mem_cons_of_mem _ hj), ed]

private theorem Still.writeConf {c i : ConnId} {w w' : World ν υ} {e : Option Err}
    (h : writeConfMessage srv w i = .ok (w', e)) : Still c w w' := Still.withWriter h

private theorem writeConf_same {i : ConnId} {w w' : World ν υ} {e : Option Err}
    (h : writeConfMessage srv w i = .ok (w', e)) :
    w'.conns = w.conns ∧ w'.registry = w.registry ∧ w'.user = w.user ∧
      ∃ l, w'.trace = w.trace ++ l ∧ ∀ e ∈ l, Plain e := by
  rcases withWriter_ok (show withWriter srv w i _ = .ok (w', e) from h) with
    ⟨net, er, _, rfl, _⟩ | ⟨net, net', _, _, rfl⟩
  · exact ⟨rfl, rfl, rfl, [], by simp, by simp⟩
  · exact ⟨rfl, rfl, rfl, [.sent i], rfl, by simp [Plain]⟩

/-! ## C76 -/

/-- C76: a connection whose configuration could not be sent is closed at once, and no hook hears of it. -/
theorem C76_not_accepted (srv : Server ν υ) (w w' : World ν υ) (c : ConnId) (limit : Int) (input : List Incoming)
    (h : handleConnection srv w c limit input = .ok w')
    (hn : connectCalls c w'.trace = connectCalls c w.trace) :
    sockCloses c w'.trace = sockCloses c w.trace + 1 ∧ hookCalls w'.trace = hookCalls w.trace ∧
    w'.conns = w.conns ∧ w'.registry = w.registry ∧ w'.user = w.user := by
  rcases handleConnection_ok h with ⟨w1, e, net, ce, hw, hc, rfl⟩ | ⟨w1, w2, hw, hr, hs⟩
  · have hst := Still.writeConf (c := c) hw
    refine ⟨?_, ?_, ?_⟩
    · show sockCloses c (w1.trace ++ [.sockClose c]) = _
      rw [sockCloses_log, hst.closes, if_pos rfl]
    · show hookCalls (w1.trace ++ [.sockClose c]) = _
      obtain ⟨l, hl, hp⟩ := (writeConf_same hw).2.2.2
      rw [hl]
      simp only [hookCalls, List.filter_append, plain_not_hook hp]
      simp [isMsgHook]
    · exact ⟨(writeConf_same hw).1, (writeConf_same hw).2.1, (writeConf_same hw).2.2.1⟩
  · exfalso
    obtain ⟨h0, _⟩ := serve_ends hs
    obtain ⟨l, hl, hp⟩ := (Quiet.runApis hr).trace
    obtain ⟨l', hl', hp'⟩ := (writeConf_same hw).2.2.2
    have z : l.count (.onClientConnected c) = 0 := List.count_eq_zero.mpr fun hm => (hp _ hm).plain
    have z' : l'.count (.onClientConnected c) = 0 := List.count_eq_zero.mpr fun hm => hp' _ hm
    rw [h0] at hn
    unfold connectCalls at hn
    rw [hl] at hn
    simp only [accepted, World.log, World.upd, List.count_append, z, hl', z'] at hn
    simp at hn

/-- C76: for an accepted connection `OnClientConnected` is called once. However it goes on – whatever the client sends, whatever
the hooks do, `Close` being called any number of times, also during shutdown – the socket is closed exactly once if the
connection ends and not at all as long as it is open, and no handler is left registered. If the client's side ends the connection
(a read error, malformed or oversized bytes) it is closed and `OnClientDisconnected` is called exactly once, otherwise not at
all. A closed connection has no session. -/
theorem C76_closed_once (srv : Server ν υ) (w w' : World ν υ) (c : ConnId) (limit : Int) (input : List Incoming)
    (h : handleConnection srv w c limit input = .ok w')
    (hn : connectCalls c w'.trace ≠ connectCalls c w.trace) :
    connectCalls c w'.trace = connectCalls c w.trace + 1 ∧
    (w'.conns c).tasks = 0 ∧
    sockCloses c w'.trace = sockCloses c w.trace + (if (w'.conns c).isActive = true then 0 else 1) ∧
    ((∃ i ∈ input, Ends srv i) →
      (w'.conns c).isActive = false ∧ disconnectCalls c w'.trace = disconnectCalls c w.trace + 1) ∧
    ((∀ i ∈ input, ¬ Ends srv i) → disconnectCalls c w'.trace = disconnectCalls c w.trace) ∧
    (StaysClosed srv c → (w'.conns c).isActive = false →
      srv.sock.isConnected w'.net c = false ∧ (w'.conns c).session = none) := by
  rcases handleConnection_ok h with ⟨w1, e, net, ce, hw, hc, rfl⟩ | ⟨w1, w2, hw, hr, hs⟩
  · exfalso
    apply hn
    obtain ⟨l', hl', hp'⟩ := (writeConf_same hw).2.2.2
    have z' : l'.count (.onClientConnected c) = 0 := List.count_eq_zero.mpr fun hm => hp' _ hm
    simp [connectCalls, World.log, hl', List.count_append, z']
  · obtain ⟨h0, h1, h2⟩ := serve_ends hs
    obtain ⟨l, hl, hp⟩ := (Quiet.runApis hr).trace
    obtain ⟨l', hl', hp'⟩ := (writeConf_same hw).2.2.2
    have z : l.count (.onClientConnected c) = 0 ∧ l.count (.onClientDisconnected c) = 0 :=
      ⟨List.count_eq_zero.mpr fun hm => (hp _ hm).plain, List.count_eq_zero.mpr fun hm => (hp _ hm).plain⟩
    have z' : l'.count (.onClientConnected c) = 0 ∧ l'.count (.onClientDisconnected c) = 0 :=
      ⟨List.count_eq_zero.mpr fun hm => hp' _ hm, List.count_eq_zero.mpr fun hm => hp' _ hm⟩
    have d2 : disconnectCalls c w2.trace = disconnectCalls c w.trace := by
      unfold disconnectCalls
      rw [hl]
      simp [accepted, World.log, World.upd, List.count_append, z, hl', z']
    have c2 : connectCalls c w2.trace = connectCalls c w.trace + 1 := by
      unfold connectCalls
      rw [hl]
      simp [accepted, World.log, World.upd, List.count_append, z, hl', z']
    have i0 : Inv srv c (sockCloses c w.trace) { accepted w1 c limit with user := (srv.hooks.onClientConnected w1.user c).1 } ∧
        (({ accepted w1 c limit with user := (srv.hooks.onClientConnected w1.user c).1 } : World ν υ).conns c).tasks = 0 := by
      refine ⟨⟨by simp [accepted, World.log, World.upd], ?_, ?_⟩, by simp [accepted, World.log, World.upd]⟩
      · rw [← (Still.writeConf (c := c) hw).closes]
        simp [accepted, World.log, World.upd, sockCloses, List.count_append]
      · intro _ hx
        exact absurd (.inl (by simp [accepted, World.log, World.upd])) hx
    obtain ⟨i1, t1⟩ := i0.1.runApis hr
    obtain ⟨i2, t2⟩ := i1.serve hs
    have t : (w'.conns c).tasks = 0 := t2.trans (t1.trans i0.2)
    have hc := i2.closes
    have hg := i2.gone
    rw [t] at hc hg
    refine ⟨by rw [h0, c2], t, by simpa using hc, fun hx => ⟨(h1 hx).2, by rw [(h1 hx).1, d2]⟩, fun hx => by rw [h2 hx, d2], ?_⟩
    intro hst ha
    exact hg hst (by simp [ha])

/-! ## While others are served -/

/-- Nothing happened to `c`, whose socket did not come back. -/
private structure Aside (srv : Server ν υ) (c : ConnId) (w w' : World ν υ) : Prop where
  conn : w'.conns c = w.conns c
  closes : sockCloses c w'.trace = sockCloses c w.trace
  net : StaysClosed srv c → srv.sock.isConnected w.net c = false → srv.sock.isConnected w'.net c = false

private theorem Aside.trans {c : ConnId} {w w' w'' : World ν υ} (h : Aside srv c w w') (h' : Aside srv c w' w'') :
    Aside srv c w w'' :=
  ⟨h'.conn.trans h.conn, h'.closes.trans h.closes, fun hs => h'.net hs ∘ h.net hs⟩

private theorem Inv.aside {c : ConnId} {n : Nat} {w w' : World ν υ} (hi : Inv srv c n w) (h : Aside srv c w w') :
    Inv srv c n w' ∧ (w'.conns c).tasks = (w.conns c).tasks :=
  ⟨hi.still ⟨by rw [h.conn], by rw [h.conn], h.closes⟩ fun hs hg => ⟨h.net hs hg.1, by rw [h.conn]; exact hg.2⟩,
   by rw [h.conn]⟩

private theorem Aside.log {c : ConnId} (w : World ν υ) (e : Ev) (h : e ≠ .sockClose c) : Aside srv c w (w.log e) :=
  ⟨rfl, (Still.log w e h).closes, fun _ => id⟩

private theorem Aside.upd {c i : ConnId} (hi : c ≠ i) (w : World ν υ) (f : Conn → Conn) : Aside srv c w (w.upd i f) :=
  ⟨by simp [World.upd, hi], rfl, fun _ => id⟩

private theorem Aside.deregister {c i : ConnId} {w w' : World ν υ} {d : Bool} {n : Int}
    (h : deregister srv w i d = .ok (w', n)) : Aside srv c w w' := by
  refine ⟨by rw [deregister_conns h], (Still.deregister h).closes, fun _ => ?_⟩
  rcases deregister_ok h with ⟨_, rfl, _⟩ | ⟨s, _, _, ⟨_, rfl⟩ | ⟨_, _, _, rfl⟩⟩ <;> exact id

private theorem Aside.fulfillMsg {c i : ConnId} {w w' : World ν υ} {m : Msg} {enc : Encoding}
    {payload : Bytes} (h : fulfillMsg srv w i m enc payload = .ok w') : Aside srv c w w' := by
  refine ⟨?_, (Still.fulfillMsg h).closes, fun hs => (forgetFrame c hs).fulfillMsg h⟩
  obtain ⟨e, h⟩ := fulfillMsg_ok h
  rw [withWriter_conns h]

private theorem Aside.failMsg {c i : ConnId} {w w' : World ν υ} {m : Msg} {re : ReplyErr}
    (h : failMsg srv w i m re = .ok w') : Aside srv c w w' := by
  refine ⟨?_, (Still.failMsg h).closes, fun hs => (forgetFrame c hs).failMsg h⟩
  rcases failMsg_ok h with ⟨_, rfl⟩ | ⟨_, ⟨e, code, text, _, h⟩ | ⟨_, _, _, _, rfl⟩ | ⟨_, _, _, h⟩⟩
  · rfl
  · rw [withWriter_conns h]
  · rfl
  · rw [withWriter_conns h]

private theorem Aside.registered {c i : ConnId} (hi : c ≠ i) (w : World ν υ) : Aside srv c w (registered w i) :=
  ⟨by simp [Webwire.registered, registerTask, World.upd, hi], rfl, fun _ => id⟩

private theorem Aside.deregisterHandler {c i : ConnId} (hi : c ≠ i) {w w' : World ν υ}
    (h : deregisterHandler srv w i = .ok w') : Aside srv c w w' := by
  obtain ⟨_, w1, h1, _, rfl⟩ := deregisterHandler_ok h
  have h0 : Aside srv c w ((opsDone w).upd i fun con => { con with tasks := con.tasks - 1 }) :=
    Aside.trans (w' := opsDone w) ⟨rfl, rfl, fun _ => id⟩ (Aside.upd hi _ _)
  refine Aside.trans (w' := w1) ?_ (Aside.upd hi _ _)
  rcases deregisterTask_ok h1 with ⟨_, _, hu⟩ | ⟨_, rfl⟩
  · obtain ⟨w2, m, net, e, hd, hc, rfl⟩ := unlink_ok hu
    refine h0.trans ((Aside.deregister hd).trans ((Aside.upd hi w2 fun con => { con with session := none }).trans ⟨rfl, ?_, fun hs => hs.close _ _ _ _ hc⟩))
    show sockCloses c (w2.trace ++ [.sockClose i]) = _
    rw [sockCloses_log, if_neg (Ne.symm hi)]
    rfl
  · exact h0

private theorem Inv.asideMessage {c i : ConnId} (hi : c ≠ i) {n : Nat} {w w' : World ν υ} {m : Msg}
    (hv : Inv srv c n w) (h : Webwire.handleMessage srv w i m = .ok w') :
    Inv srv c n w' ∧ (w'.conns c).tasks = (w.conns c).tasks := by
  have hrel : ∀ w1 : World ν υ, Aside srv c w1 (releaseMsg w1) := fun w1 => .log w1 _ (by simp)
  rcases handleMessage_ok h with ⟨_, rfl⟩ | ⟨_, w1, b, hr, hb⟩
  · exact hv.aside (hrel _)
  rcases registerHandler_ok hr with ⟨_, rfl, rfl⟩ | ⟨_, _, ⟨_, _, rfl, hf⟩ | ⟨_, rfl, rfl⟩⟩
  · rcases hb with ⟨_, rfl⟩ | ⟨hc, _⟩
    · exact hv.aside (hrel _)
    · cases hc
  · rcases hb with ⟨_, rfl⟩ | ⟨hc, _⟩
    · have hn : StaysClosed srv c → srv.sock.isConnected w.net c = false → srv.sock.isConnected w1.net c = false :=
        fun hs hn => (forgetFrame c hs).failMsgShutdown hf hn
      obtain ⟨net, net', e, _, _, rfl⟩ := failMsgShutdown_ok hf
      refine hv.aside (Aside.trans ⟨?_, ?_, hn⟩ (hrel _))
      · simp [World.log, slotTaken, World.upd, hi]
      · simp [World.log, slotTaken, World.upd, sockCloses, List.count_append]
    · cases hc
  rcases hb with ⟨hc, _⟩ | ⟨_, hb⟩
  · cases hc
  have hreg : Aside srv c w (Webwire.registered w i) := .registered hi w
  rcases hb with ⟨_, hh⟩ | ⟨_, hh⟩ | ⟨_, hh⟩ | ⟨_, hh⟩ | ⟨_, w2, hd, rfl⟩
  · obtain ⟨w2, w3, hr, hd, rfl⟩ := handleSignal_ok hh
    obtain ⟨i1, t1⟩ := hv.aside hreg
    obtain ⟨i2, t2⟩ := ((i1.log _ (by simp)).user _).runApis hr
    obtain ⟨i3, t3⟩ := i2.aside ((Aside.deregisterHandler hi hd).trans (hrel _))
    exact ⟨i3, t3.trans (t2.trans t1)⟩
  · obtain ⟨w2, w3, w4, hr, hf, hd, rfl⟩ := handleRequest_ok hh
    obtain ⟨i1, t1⟩ := hv.aside hreg
    obtain ⟨i2, t2⟩ := ((i1.log _ (by simp)).user _).runApis hr
    have hf : Aside srv c w2 w3 := by
      rcases hf with ⟨_, hf⟩ | ⟨_, hf⟩
      · exact .fulfillMsg hf
      · exact .failMsg hf
    obtain ⟨i3, t3⟩ := i2.aside ((hf.trans (Aside.deregisterHandler hi hd)).trans (hrel _))
    exact ⟨i3, t3.trans (t2.trans t1)⟩
  · obtain ⟨w2, w3, hc, hd, rfl⟩ := handleSessionRestore_ok hh
    have hlk : Aside srv c (Webwire.registered w i) (lookedUp srv (Webwire.registered w i) (m.payload.data.view m.buf)) :=
      ⟨rfl, by simp [lookedUp, sockCloses, World.log, List.count_append], fun _ => id⟩
    have h2 : Aside srv c (Webwire.registered w i) w2 := by
      rcases hc with ⟨_, h⟩ | ⟨_, _, h⟩ | ⟨_, _, _, h⟩ | ⟨_, _, _, h⟩ | ⟨r, _, _, _, _, h⟩ |
        ⟨r, encoded, w1, _, _, _, _, hr, h⟩
      · exact .failMsg h
      · exact .failMsg h
      · exact hlk.trans (.failMsg h)
      · exact hlk.trans (.failMsg h)
      · exact hlk.trans (.failMsg h)
      · refine hlk.trans (Aside.trans (w' := w1) ?_ (.fulfillMsg h))
        obtain ⟨_, _, rfl, _⟩ := register_ok hr
        exact ⟨by simp [setSession, World.upd, hi], rfl, fun _ => id⟩
    exact hv.aside (((hreg.trans h2).trans (Aside.deregisterHandler hi hd)).trans (hrel _))
  · obtain ⟨w2, w3, hc, hd, rfl⟩ := handleSessionClosure_ok hh
    have h2 : Aside srv c (Webwire.registered w i) w2 := by
      rcases hc with ⟨_, h⟩ | ⟨_, _, h⟩ | ⟨_, _, w1, n, hd, h⟩
      · exact .failMsg h
      · exact .fulfillMsg h
      · exact (Aside.deregister hd).trans ((Aside.upd hi _ _).trans (.fulfillMsg h))
    exact hv.aside (((hreg.trans h2).trans (Aside.deregisterHandler hi hd)).trans (hrel _))
  · exact hv.aside ((hreg.trans (Aside.deregisterHandler hi hd)).trans (hrel _))

private theorem Inv.asideDisconnect {c i : ConnId} {n : Nat} {w w' : World ν υ} (hv : Inv srv c n w)
    (h : Webwire.disconnect srv w i = .ok w') : Inv srv c n w' ∧ (w'.conns c).tasks = (w.conns c).tasks := by
  obtain ⟨w1, h1, h2⟩ := disconnect_ok h
  obtain ⟨i1, t1⟩ := (hv.log .msgClose (by simp)).connClose h1
  obtain ⟨i2, t2⟩ := ((i1.log (.onClientDisconnected i) (by simp)).user _).runApis h2
  exact ⟨i2, t2.trans t1⟩

private theorem Inv.asideServe {c i : ConnId} (hi : c ≠ i) {n : Nat} {input : List Incoming} : ∀ {w w' : World ν υ},
    Inv srv c n w → Webwire.serve srv w i input = .ok w' → Inv srv c n w' ∧ (w'.conns c).tasks = (w.conns c).tasks := by
  induction input with
  | nil =>
    intro w w' hv h
    simp only [Webwire.serve, Except.ok.injEq] at h
    rw [← h]; exact ⟨hv, rfl⟩
  | cons j rest ih =>
    intro w w' hv h
    cases j with
    | failed b => exact hv.asideDisconnect h
    | data bs =>
      unfold Webwire.serve at h
      obtain ⟨⟨m, tp, e⟩, h1, h⟩ := bind_ok h
      dsimp only at h
      by_cases hc : e ≠ none ∨ tp = false
      · rw [if_pos hc] at h; exact hv.asideDisconnect h
      · rw [if_neg hc] at h
        obtain ⟨w1, h2, h⟩ := bind_ok h
        obtain ⟨i1, t1⟩ := hv.asideMessage hi h2
        obtain ⟨i2, t2⟩ := ih i1 h
        exact ⟨i2, t2.trans t1⟩

/-- Right after `c` was accepted. -/
private theorem Inv.accepted {c : ConnId} {limit : Int} {w : World ν υ} (u : υ) :
    Inv srv c (sockCloses c w.trace) { accepted w c limit with user := u } ∧
      (({ accepted w c limit with user := u } : World ν υ).conns c).tasks = 0 := by
  refine ⟨⟨by simp [Webwire.accepted, World.log, World.upd], ?_, ?_⟩, by simp [Webwire.accepted, World.log, World.upd]⟩
  · simp [Webwire.accepted, World.log, World.upd, sockCloses, List.count_append]
  · intro _ hx
    exact absurd (.inl (by simp [Webwire.accepted, World.log, World.upd])) hx

private theorem Inv.step {c : ConnId} {ow : Bool} {w w' : World ν υ} (hv : (∃ n, Inv srv c n w) ∧ (w.conns c).tasks = 0)
    (h : Spec.Step srv ow w w') : (∃ n, Inv srv c n w') ∧ (w'.conns c).tasks = 0 := by
  obtain ⟨⟨n, hv⟩, ht⟩ := hv
  cases h with
  | accept _ i limit h0 h =>
    have hwc : ∀ {w1 e}, writeConfMessage srv w i = .ok (w1, e) → Aside srv c w w1 := by
      intro w1 e hw
      refine ⟨by rw [(writeConf_same hw).1], (Still.writeConf hw).closes, fun hs hn => ?_⟩
      have hl : ∀ (b : Bytes) {n n'} {e : Option Err}, runParts (srv.sock.writer i) n [b] = .ok (n', e) →
          srv.sock.isConnected n c = false → srv.sock.isConnected n' c = false := by
        intro b n n' e h
        exact (forgetFrame c hs).runParts (w := { w with net := n }) h
      unfold writeConfMessage withWriter at hw
      obtain ⟨⟨net, e1⟩, hg, hw⟩ := bind_ok hw
      have hn1 := hs.getWriter _ _ _ _ hg hn
      cases e1 with
      | some e1 =>
        simp only [pure, Except.pure, Except.ok.injEq, Prod.mk.injEq] at hw
        rw [← hw.1]
        exact hn1
      | none =>
        obtain ⟨⟨net', e2⟩, hp, hw⟩ := bind_ok hw
        simp only [pure, Except.pure, Except.ok.injEq, Prod.mk.injEq] at hw
        rw [← hw.1]
        exact hl srv.configMsg hp hn1
    rcases handleConnection_ok h with ⟨w1, e, net, ce, hw, hc, rfl⟩ | ⟨w1, w2, hw, hr, hs⟩
    · obtain ⟨i1, t1⟩ := hv.aside (hwc hw)
      by_cases hic : c = i
      · subst hic
        have hna : ¬ ((w1.conns c).isActive = true ∨ 1 ≤ (w1.conns c).tasks) := by
          rw [(hwc hw).conn, h0]
          simp
        have hcl := i1.closes
        rw [if_neg hna] at hcl
        refine ⟨⟨n + 1, i1.tasks, ?_, fun hst _ => ⟨hst.closed _ _ _ hc, (i1.gone hst hna).2⟩⟩, t1.trans ht⟩
        show sockCloses c (w1.trace ++ [.sockClose c]) = n + 1 + if (w1.conns c).isActive = true ∨ 1 ≤ (w1.conns c).tasks then 0 else 1
        rw [sockCloses_log, hcl, if_pos rfl, if_neg hna]
      · obtain ⟨i2, t2⟩ := i1.aside (w' := { w1 with net := net }.log (.sockClose i))
          ⟨rfl, (Still.log _ _ (by simp [Ne.symm hic])).closes, fun hst => hst.close _ _ _ _ hc⟩
        exact ⟨⟨n, i2⟩, t2.trans (t1.trans ht)⟩
    · simp only [Webwire.serve, Except.ok.injEq] at hs
      subst hs
      by_cases hic : c = i
      · subst hic
        have i0 := Inv.accepted (srv := srv) (c := c) (limit := limit) (w := w1) (srv.hooks.onClientConnected w1.user c).1
        obtain ⟨i1, t1⟩ := i0.1.runApis hr
        exact ⟨⟨_, i1⟩, t1.trans i0.2⟩
      · obtain ⟨i1, t1⟩ := hv.aside (hwc hw)
        obtain ⟨i2, t2⟩ := i1.aside (Aside.trans (Aside.upd hic w1 fun _ => { limit := limit, isActive := true })
          (Aside.log _ (.onClientConnected i) (by simp)))
        obtain ⟨i3, t3⟩ := (i2.user _).runApis hr
        exact ⟨⟨n, i3⟩, t3.trans (t2.trans (t1.trans ht))⟩
  | receive _ i j _ h =>
    by_cases hic : c = i
    · subst hic
      obtain ⟨i1, t1⟩ := hv.serve h
      exact ⟨⟨n, i1⟩, t1.trans ht⟩
    · obtain ⟨i1, t1⟩ := hv.asideServe hic h
      exact ⟨⟨n, i1⟩, t1.trans ht⟩
  | api _ a h =>
    obtain ⟨i1, t1⟩ := hv.runApi h
    exact ⟨⟨n, i1⟩, t1.trans ht⟩
  | shutdown => exact ⟨⟨n, hv.tasks, hv.closes, hv.gone⟩, ht⟩

/-- C76: and so it stays. Whatever else happens on a server after it accepted a connection – to this and to any other
connection, API calls, a shutdown – when it is done with that no handler of the connection is registered, and if the
connection is closed its socket is closed and it has no session. -/
theorem C76_stays_closed (srv : Server ν υ) (ow : Bool) (w w1 w2 : World ν υ) (c : ConnId) (limit : Int)
    (input : List Incoming) (h : handleConnection srv w c limit input = .ok w1)
    (hn : connectCalls c w1.trace ≠ connectCalls c w.trace) (hl : Relation.ReflTransGen (Spec.Step srv ow) w1 w2) :
    (w2.conns c).tasks = 0 ∧ (StaysClosed srv c → (w2.conns c).isActive = false →
      srv.sock.isConnected w2.net c = false ∧ (w2.conns c).session = none) := by
  have h1 : (∃ n, Inv srv c n w1) ∧ (w1.conns c).tasks = 0 := by
    rcases handleConnection_ok h with ⟨w3, e, net, ce, hw, hc, rfl⟩ | ⟨w3, w4, hw, hr, hs⟩
    · exfalso
      apply hn
      obtain ⟨l', hl', hp'⟩ := (writeConf_same hw).2.2.2
      have z' : l'.count (.onClientConnected c) = 0 := List.count_eq_zero.mpr fun hm => hp' _ hm
      simp [connectCalls, World.log, hl', List.count_append, z']
    · have i0 := Inv.accepted (srv := srv) (c := c) (limit := limit) (w := w3) (srv.hooks.onClientConnected w3.user c).1
      obtain ⟨i1, t1⟩ := i0.1.runApis hr
      obtain ⟨i2, t2⟩ := i1.serve hs
      exact ⟨⟨_, i2⟩, t2.trans (t1.trans i0.2)⟩
  have h2 : (∃ n, Inv srv c n w2) ∧ (w2.conns c).tasks = 0 := by
    induction hl with
    | refl => exact h1
    | tail _ hst ih => exact Inv.step ih hst
  obtain ⟨⟨n, hv⟩, ht⟩ := h2
  exact ⟨ht, fun hs ha => hv.gone hs (by simp [ha, ht])⟩

/-- What C34 asks for of connections that were closed: no session lists them. -/
def C34_listed_active_full : Prop :=
  ∀ (υ : Type) (srv : Server Net υ) (w w1 w2 : World Net υ) (c : ConnId) (limit : Int), ideal srv →
    Reachable srv true w → w.conns c = {} → handleConnection srv w c limit [] = .ok w1 →
    connectCalls c w1.trace ≠ connectCalls c w.trace → Relation.ReflTransGen (Spec.Step srv true) w1 w2 →
    ∀ k order l, sessionConnections w2 k order = some l → c ∈ l → (w2.conns c).isActive = true

/-- A client restores the session `[1]`, then the session `[1, 1]` and disconnects. It stays listed with the first one,
which nobody can restore any more: the limit of one connection is reached. -/
theorem haunted : ∃ w1 w2 w3, handleConnection (sessServer 1) sessStart 1 0 [] = .ok w1 ∧
    connectCalls 1 w1.trace ≠ connectCalls 1 sessStart.trace ∧
    Relation.ReflTransGen (Spec.Step (sessServer 1) true) w1 w2 ∧ (w2.conns 1).isActive = false ∧
    sessionConnections w2 [1] [] = some [1] ∧
    handleConnection (sessServer 1) w2 2 0 [.data [32, 0,0,0,0,0,0,0,3, 1]] = .ok w3 ∧
    (w3.conns 2).session = none ∧ (w3.net.out 2).getLast? = some [4, 0,0,0,0,0,0,0,3] := by
  obtain ⟨w1, wa, wb, wc, w3, h1, h2, h3, h4, h5, h6⟩ : ∃ w1 wa wb wc w3,
      handleConnection (sessServer 1) sessStart 1 0 [] = .ok w1 ∧
      serve (sessServer 1) w1 1 [.data [32, 0,0,0,0,0,0,0,1, 1]] = .ok wa ∧
      serve (sessServer 1) wa 1 [.data [32, 0,0,0,0,0,0,0,2, 1, 1]] = .ok wb ∧
      serve (sessServer 1) wb 1 [.failed true] = .ok wc ∧
      handleConnection (sessServer 1) wc 2 0 [.data [32, 0,0,0,0,0,0,0,3, 1]] = .ok w3 ∧
      connectCalls 1 w1.trace ≠ connectCalls 1 sessStart.trace ∧ (wc.conns 1).isActive = false ∧
      sessionConnections wc [1] [] = some [1] ∧ (w3.conns 2).session = none ∧
      (w3.net.out 2).getLast? = some [4, 0,0,0,0,0,0,0,3] :=
    ⟨_, _, _, _, _, by rfl, by rfl, by rfl, by rfl, by rfl, by decide, by rfl, by rfl, by rfl, by rfl⟩
  exact ⟨w1, wc, w3, h1, h6.1, ((Relation.ReflTransGen.single (.receive _ _ 1 _ (.inl rfl) h2)).tail
    (.receive _ _ 1 _ (.inl rfl) h3)).tail (.receive _ _ 1 _ (.inl rfl) h4), h6.2.1, h6.2.2.1, h5, h6.2.2.2⟩

/-- **C34 is violated**: a connection that was closed stays listed with a session it had before it restored another one. -/
theorem C34_listed_active_violated : ¬ C34_listed_active_full := by
  intro h
  obtain ⟨w1, w2, _, h1, hn, hl, ha, hk, _⟩ := haunted
  have := h Nat (sessServer 1) sessStart w1 w2 1 0 rfl (.start _ ⟨rfl, fun _ => rfl, rfl⟩) rfl h1 hn hl [1] [] [1] hk (by simp)
  rw [ha] at this
  cases this

/-- C34 as long as no session is restored on a connection that already has one: once the server is done with whatever
happened after it accepted a connection, the connection is listed with a session only if it is active. Clients that are
gone do not count towards the limit of connections per session. -/
theorem C34_listed_active_partial (srv : Server ν υ) (w w1 w2 : World ν υ) (c : ConnId) (limit : Int)
    (hr : Reachable srv false w) (h0 : w.conns c = {}) (h : handleConnection srv w c limit [] = .ok w1)
    (hn : connectCalls c w1.trace ≠ connectCalls c w.trace) (hl : Relation.ReflTransGen (Spec.Step srv false) w1 w2)
    (hs : StaysClosed srv c) (k : Bytes) (order l : List ConnId) (hk : sessionConnections w2 k order = some l)
    (hc : c ∈ l) : (w2.conns c).isActive = true := by
  have hr2 : Reachable srv false w2 := by
    clear hk
    induction hl with
    | refl => exact hr.step _ _ (.accept _ _ c limit h0 h)
    | tail _ hst ih => exact ih.step _ _ hst
  cases ha : (w2.conns c).isActive with
  | true => rfl
  | false =>
    obtain ⟨s, h1, _⟩ := C34_listed_connections_partial srv w2 hr2 k order l hk c hc
    rw [((C76_stays_closed srv false w w1 w2 c limit [] h hn hl).2 hs ha).2] at h1
    cases h1

/-- The sockets of the in-memory network do not come back. -/
theorem ideal_staysClosed (srv : Server Net υ) (hs : ideal srv) (c : ConnId) : StaysClosed srv c := by
  have e : srv.sock = idealSockets := hs
  constructor
  · intro n i n' er h hc
    rw [e] at h hc ⊢
    simp only [netSockets] at h hc ⊢
    split at h <;> (simp only [Except.ok.injEq, Prod.mk.injEq] at h; rw [← h.1]; exact hc)
  · intro n i b n' er h hc
    rw [e] at h hc ⊢
    simp only [netSockets] at h hc ⊢
    split at h <;> (simp only [Except.ok.injEq, Prod.mk.injEq] at h; rw [← h.1]; exact hc)
  · intro n i n' er h hc
    rw [e] at h hc ⊢
    simp only [netSockets] at h hc ⊢
    split at h <;> (simp only [Except.ok.injEq, Prod.mk.injEq] at h; rw [← h.1]; exact hc)
  · intro n i n' er h hc
    rw [e] at h hc ⊢
    simp only [netSockets, Except.ok.injEq, Prod.mk.injEq] at h hc ⊢
    rw [← h.1]
    simp [hc]
  · intro n n' er h
    rw [e] at h ⊢
    simp only [netSockets, Except.ok.injEq, Prod.mk.injEq] at h ⊢
    rw [← h.1]
    simp

/-- C76, C34, non-vacuity: a client restores a session, another client connects, the first one disconnects. -/
example : ∃ w1 w2 w3, handleConnection (sessServer 1) sessStart 1 0 [] = .ok w1 ∧
    connectCalls 1 w1.trace ≠ connectCalls 1 sessStart.trace ∧
    Relation.ReflTransGen (Spec.Step (sessServer 1) false) w1 w2 ∧ sessionConnections w2 [1] [] = some [1] ∧
    Relation.ReflTransGen (Spec.Step (sessServer 1) false) w2 w3 ∧ (w3.conns 1).isActive = false ∧
    sessionConnections w3 [1] [] = none := by
  obtain ⟨w1, wa, wb, wc, h1, h2, h0, h3, h4, h5⟩ : ∃ w1 wa wb wc,
      handleConnection (sessServer 1) sessStart 1 0 [] = .ok w1 ∧
      serve (sessServer 1) w1 1 [.data [32, 0,0,0,0,0,0,0,1, 1]] = .ok wa ∧ wa.conns 2 = {} ∧
      handleConnection (sessServer 1) wa 2 0 [] = .ok wb ∧
      serve (sessServer 1) wb 1 [.failed true] = .ok wc ∧
      connectCalls 1 w1.trace ≠ connectCalls 1 sessStart.trace ∧ (w1.conns 1).session = none ∧
      sessionConnections wb [1] [] = some [1] ∧ (wc.conns 1).isActive = false ∧ sessionConnections wc [1] [] = none :=
    ⟨_, _, _, _, by rfl, by rfl, by rfl, by rfl, by rfl, by decide, by rfl, by rfl, by rfl, by rfl⟩
  exact ⟨w1, wb, wc, h1, h5.1, (Relation.ReflTransGen.single (.receive _ _ 1 _ (.inr (.inl h5.2.1)) h2)).tail
    (.accept _ _ 2 0 h0 h3), h5.2.2.1, .single (.receive _ _ 1 _ (.inr (.inr (by intro _ h; cases h))) h4), h5.2.2.2⟩

/-- C76, non-vacuity: `OnRequest` closes the connection twice and creates a session in between; the client then sends another
request and breaks off. The socket is closed once, after the reply. -/
example : ∃ w', handleConnection (exServer { calls := [.close 1, .createSession 1 none, .close 1] }) { net := {}, user := () } 1 0
      [.data [127, 1,2,3,4,5,6,7,8, 1, 97], .data [127, 1,2,3,4,5,6,7,9, 1, 97], .failed false] = .ok w' ∧
    connectCalls 1 w'.trace = 1 ∧ sockCloses 1 w'.trace = 1 ∧ disconnectCalls 1 w'.trace = 1 ∧
    (w'.conns 1).session = none ∧ (w'.net.out 1).length = 3 := ⟨_, rfl, rfl, rfl, rfl, rfl, rfl⟩

/-! ## C20: heartbeats -/

/-- C20: a heartbeat leads to nothing at all, on an open or a closed connection, during shutdown or not: its buffer is released. -/
theorem C20_heartbeat (srv : Server ν υ) (w : World ν υ) (c : ConnId) (bs : Bytes) (v : View)
    (hg : Grammar bs v) (hfit : bs.length ≤ srv.bufferSize.toNat) (ht : v.msgType = 33) (rest : List Incoming) :
    serve srv w c (.data bs :: rest) = serve srv (w.log .msgClose) c rest := by
  obtain ⟨m, h1, h2, h3, _, h4⟩ := serve_grammar (srv := srv) (w := w) (c := c) (rest := rest) hg hfit
  rw [h4]
  have hm : m.msgType = MsgHeartbeat := by
    have : m.shown.msgType = v.msgType := by rw [h1]
    exact this.trans ht
  simp only [handleMessage, hm, if_true, bind, Except.bind, pure, Except.pure, releaseMsg]

/-- C20, non-vacuity: a heartbeat. -/
example : ∃ w', serve (exServer {}) exWorld 1 [.data [33]] = .ok w' ∧ w'.trace = [.msgClose] := ⟨_, rfl, rfl⟩

/-! ## C59: ready for the next message -/

/-- C59: after whatever was received, the server is as ready as before: as many handlers are registered and as many handler slots
taken as before, on every connection, no operation is left pending, and it does not believe itself to be shutting down. -/
theorem C59_ready_again (srv : Server ν υ) (w w' : World ν υ) (c : ConnId) (input : List Incoming)
    (hsd : w.shutdown = false) (h : serve srv w c input = .ok w') :
    w'.currentOps = w.currentOps ∧ w'.shutdown = false ∧
    ∀ i, (w'.conns i).tasks = (w.conns i).tasks ∧ (w'.conns i).slots = (w.conns i).slots ∧
      (w'.conns i).limit = (w.conns i).limit := by
  have b := serve_balanced hsd h
  exact ⟨b.ops, by rw [b.shutdown, hsd], fun i => ⟨b.tasks i, b.slots i, b.limit i⟩⟩

/-- C59, non-vacuity: a request and garbage, on a connection with two handler slots. -/
example : ∃ w', serve (exServer {}) { exWorld with conns := fun _ => { limit := 2, isActive := true } } 1
      [.data [127, 1,2,3,4,5,6,7,8, 1, 97], .data [9, 9]] = .ok w' ∧
    w'.currentOps = 0 ∧ (w'.conns 1).slots = 0 ∧ (w'.net.out 1).length = 1 := ⟨_, rfl, rfl, rfl, rfl⟩

/-! ## C28: a refused request leaves nothing behind -/

/-- C28: a request received during shutdown runs no hook and no user code and changes neither sessions, registry nor the
operations `Shutdown` waits for: all that happens is a message to the client (none if its connection was closed). Its
handler slot is taken, though, and never given back (C29). -/
theorem C28_refusal_changes_nothing (srv : Server ν υ) (w w' : World ν υ) (c : ConnId) (bs : Bytes) (v : View)
    (hg : Grammar bs v) (hfit : bs.length ≤ srv.bufferSize.toNat) (hq : asksReply v.msgType)
    (hsd : w.shutdown = true) (h : serve srv w c [.data bs] = .ok w') :
    w'.user = w.user ∧ w'.registry = w.registry ∧ w'.shutdown = true ∧ w'.currentOps = w.currentOps ∧
    w'.rdyClosed = w.rdyClosed ∧
    (∀ i, (w'.conns i).session = (w.conns i).session ∧ (w'.conns i).isActive = (w.conns i).isActive ∧
      (w'.conns i).tasks = (w.conns i).tasks) ∧
    w'.trace = w.trace ++ (if (w.conns c).isActive then [.sent c, .msgClose] else [.msgClose]) := by
  obtain ⟨m, h1, _, _, _, h2⟩ := serve_grammar (srv := srv) (w := w) (c := c) (rest := []) hg hfit
  rw [h2] at h
  obtain ⟨w1, h3, h⟩ := bind_ok h
  simp only [serve, Except.ok.injEq] at h
  subst h
  have ht : m.msgType = v.msgType := by rw [← h1]; rfl
  rw [← ht] at hq
  have hr : m.requiresReply = true := by
    simp only [asksReply, List.mem_cons, List.not_mem_nil, or_false] at hq
    simp only [Msg.requiresReply, MsgRequestCloseSession, MsgRequestRestoreSession, MsgRequestBinary, MsgRequestUtf8,
      MsgRequestUtf16, Bool.or_eq_true, beq_iff_eq]
    tauto
  have hnh : m.msgType ≠ MsgHeartbeat := by
    intro e; rw [e] at hq; revert hq; decide
  rcases handleMessage_ok h3 with ⟨hh, _⟩ | ⟨_, w2, b, hreg, hb⟩
  · exact absurd hh hnh
  rcases registerHandler_ok hreg with ⟨ha, rfl, rfl⟩ | ⟨ha, _, ⟨_, _, rfl, hf⟩ | ⟨hns, _, _⟩⟩
  · rcases hb with ⟨_, rfl⟩ | ⟨hb, _⟩
    · exact ⟨rfl, rfl, hsd, rfl, rfl, fun i => ⟨rfl, rfl, rfl⟩, by rw [ha]; rfl⟩
    · cases hb
  · rcases hb with ⟨_, rfl⟩ | ⟨hb, _⟩
    · obtain ⟨net, net', e, _, _, rfl⟩ := failMsgShutdown_ok hf
      refine ⟨rfl, rfl, hsd, rfl, rfl, fun i => ?_, ?_⟩
      · simp only [releaseMsg, World.log, slotTaken, World.upd]
        by_cases hi : i = c
        · subst hi; simp
        · simp [hi]
      · rw [ha]; simp [releaseMsg, World.log, slotTaken, World.upd]
    · cases hb
  · exact absurd ⟨hsd, hr⟩ hns

/-- C28, non-vacuity: a request received during shutdown is answered with the shutdown reply. -/
example : ∃ w', serve (exServer {}) { exWorld with shutdown := true, currentOps := 3 } 1
      [.data [127, 1,2,3,4,5,6,7,8, 1, 97]] = .ok w' ∧
    w'.currentOps = 3 ∧ w'.net.out 1 = [[1, 1,2,3,4,5,6,7,8]] := ⟨_, rfl, rfl, rfl⟩

end Webwire
