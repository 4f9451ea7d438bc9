import Verif.Proofs.Frame
import Verif.Proofs.Lifecycle2
import Verif.Spec.Lifecycle
import Verif.Spec.Seriatim

/-!
Helper lemmas: what the server does one thing after the other (`Model/Server`) is among the executions of
`Model/Lifecycle`.
-/

set_option autoImplicit false

namespace Webwire.Life
open _root_.Webwire.Spec

variable {ν υ : Type} {srv : Server ν υ} {seen : List ConnId}

/-- Not between the check of the connection's state and the registration of a message. -/
def PC.still : PC → Bool
  | .acquiring _ _ | .counting _ _ | .tasking _ _ => false
  | _ => true

/-- What the executions found here satisfy. -/
def Tidy (s : State) (l : Label) : Prop := Life.Spec.NoCloseRace s l ∧ Life.Spec.WritersOk s l

theorem go {g g' : G} {pre post pcs : List PC} {pc : PC} (ch : Choice)
    (h : ReachableIf Tidy ⟨g, pre ++ pc :: post⟩) (hc : g.crashed = none) (hw : ch.writerOk = true)
    (hn : ∀ c rd, pc ≠ .closing c rd) (ha : act g ch pc = some (g', pcs)) :
    ReachableIf Tidy ⟨g', pre ++ (pcs ++ post)⟩ :=
  .step _ _ _ h ⟨fun c rd ch' e => by cases e; exact absurd rfl (hn c rd), fun pc' ch' e => by cases e; exact hw⟩
    (.thread g g' pre post pcs pc ch hc ha)

theorem go_closing {g g' : G} {pre post pcs : List PC} {c : ConnId} {rd : Bool}
    (h : ReachableIf Tidy ⟨g, pre ++ .closing c rd :: post⟩) (hc : g.crashed = none)
    (hs : ∀ pc ∈ pre ++ post, pc.still = true) (ha : actClosing g c rd = (g', pcs)) :
    ReachableIf Tidy ⟨g', pre ++ (pcs ++ post)⟩ := by
  refine .step _ (.thread (.closing c rd) {}) _ h ⟨fun c' rd' ch' e _ m => ?_, fun pc' ch' e => by cases e; rfl⟩
    (.thread g g' pre post pcs (.closing c rd) {} hc (by simp only [act, ha]))
  have key : ∀ pc ∈ pre ++ .closing c rd :: post, pc.still = true := by
    intro pc hp
    simp only [List.mem_append, List.mem_cons] at hp hs
    rcases hp with hp | rfl | hp
    · exact hs pc (.inl hp)
    · rfl
    · exact hs pc (.inr hp)
  exact ⟨fun hm => by simpa [PC.still] using key _ hm, fun hm => by simpa [PC.still] using key _ hm,
    fun hm => by simpa [PC.still] using key _ hm⟩

/-- The parts of the two models that correspond are the same. -/
structure Like (seen : List ConnId) (w : World ν υ) (g : G) : Prop where
  crashed : g.crashed = none
  shutdown : g.shutdown = w.shutdown
  ops : g.currentOps = w.currentOps
  rdy : g.rdyClosed = w.rdyClosed
  active : ∀ c, (g.conns c).active = (w.conns c).isActive
  limit : ∀ c, (g.conns c).limit = (w.conns c).limit
  tasks : ∀ c, (g.conns c).tasks = (w.conns c).tasks
  slots : ∀ c, (g.conns c).slots = (w.conns c).slots
  used : ∀ c, (g.conns c).active = true → (g.conns c).used = true
  closes : ∀ c, (g.conns c).used = true → (g.conns c).sockCloses = w.trace.count (.sockClose c)
  rejected : ∀ c, (g.conns c).used = false → w.trace.count (.sockClose c) ≤ 1
  unseen : ∀ c, c ∉ seen → (g.conns c).used = false ∧ w.trace.count (.sockClose c) = 0
  clients : g.connections = clientsIn w.trace
  calls : callsOf g.log = callsIn w.trace

/-- Events that have no counterpart. -/
def plain : Ev → Bool
  | .onSignal .. | .onRequest .. | .onClientDisconnected _ | .onClientConnected _ | .sockClose _ => false
  | _ => true

/-- Nothing changed that has a counterpart. -/
structure Quiet (w w' : World ν υ) : Prop where
  shutdown : w'.shutdown = w.shutdown
  ops : w'.currentOps = w.currentOps
  rdy : w'.rdyClosed = w.rdyClosed
  conns : ∀ c, { w'.conns c with session := none } = { w.conns c with session := none }
  trace : ∃ l, w'.trace = w.trace ++ l ∧ ∀ e ∈ l, plain e = true

theorem plain_none {l : List Ev} (h : ∀ e ∈ l, plain e = true) :
    callsIn l = [] ∧ clientsIn l = [] ∧ ∀ c, l.count (.sockClose c) = 0 := by
  refine ⟨?_, ?_, fun c => ?_⟩
  · simp only [callsIn, List.filterMap_eq_nil_iff]
    intro e he
    have := h e he
    cases e <;> simp_all [plain]
  · simp only [clientsIn, List.filterMap_eq_nil_iff]
    intro e he
    have := h e he
    cases e <;> simp_all [plain]
  · rw [List.count_eq_zero]
    intro he
    simpa [plain] using h _ he

theorem Quiet.like {w w' : World ν υ} {g : G} (q : Quiet w w') (h : Like seen w g) : Like seen w' g := by
  obtain ⟨l, ht, hp⟩ := q.trace
  obtain ⟨e1, e2, e3⟩ := plain_none hp
  have hc : ∀ c, w'.trace.count (.sockClose c) = w.trace.count (.sockClose c) := fun c => by
    rw [ht, List.count_append, e3, Nat.add_zero]
  have hq : ∀ c, (w'.conns c).isActive = (w.conns c).isActive ∧ (w'.conns c).limit = (w.conns c).limit ∧
      (w'.conns c).tasks = (w.conns c).tasks ∧ (w'.conns c).slots = (w.conns c).slots := fun c => by
    have := q.conns c
    simp only [Conn.mk.injEq] at this
    exact ⟨this.2.1, this.1, this.2.2.1, this.2.2.2.1⟩
  exact {
    crashed := h.crashed
    shutdown := by rw [h.shutdown, q.shutdown]
    ops := by rw [h.ops, q.ops]
    rdy := by rw [h.rdy, q.rdy]
    active := fun c => by rw [h.active, (hq c).1]
    limit := fun c => by rw [h.limit, (hq c).2.1]
    tasks := fun c => by rw [h.tasks, (hq c).2.2.1]
    slots := fun c => by rw [h.slots, (hq c).2.2.2]
    used := h.used
    closes := fun c hu => by rw [hc]; exact h.closes c hu
    rejected := fun c hu => by rw [hc]; exact h.rejected c hu
    unseen := fun c hu => by rw [hc]; exact h.unseen c hu
    clients := by rw [h.clients, ht, clientsIn, clientsIn, List.filterMap_append, ← clientsIn, ← clientsIn, e2, List.append_nil]
    calls := by rw [h.calls, ht, callsIn, callsIn, List.filterMap_append, ← callsIn, ← callsIn, e1, List.append_nil] }

theorem Quiet.refl (w : World ν υ) : Quiet w w := ⟨rfl, rfl, rfl, fun _ => rfl, [], by simp, by simp⟩

theorem Quiet.trans {w w' w'' : World ν υ} (h : Quiet w w') (h' : Quiet w' w'') : Quiet w w'' := by
  obtain ⟨l, e, p⟩ := h.trace
  obtain ⟨l', e', p'⟩ := h'.trace
  refine ⟨h'.shutdown.trans h.shutdown, h'.ops.trans h.ops, h'.rdy.trans h.rdy, fun c => (h'.conns c).trans (h.conns c),
    l ++ l', by rw [e', e, List.append_assoc], fun x hx => ?_⟩
  rcases List.mem_append.mp hx with hx | hx
  · exact p x hx
  · exact p' x hx

theorem Quiet.net (w : World ν υ) (net : ν) : Quiet w { w with net := net } :=
  ⟨rfl, rfl, rfl, fun _ => rfl, [], by simp, by simp⟩

theorem Quiet.user (w : World ν υ) (u : υ) : Quiet w { w with user := u } :=
  ⟨rfl, rfl, rfl, fun _ => rfl, [], by simp, by simp⟩

theorem Quiet.registry (w : World ν υ) (r : GoMap Bytes (List ConnId)) : Quiet w { w with registry := r } :=
  ⟨rfl, rfl, rfl, fun _ => rfl, [], by simp, by simp⟩

theorem Quiet.log (w : World ν υ) {e : Ev} (h : plain e = true) : Quiet w (w.log e) :=
  ⟨rfl, rfl, rfl, fun _ => rfl, [e], rfl, by simpa using h⟩

theorem Quiet.session (w : World ν υ) (c : ConnId) (s : Option Session) : Quiet w (setSession w c s) :=
  ⟨rfl, rfl, rfl, fun i => by by_cases h : i = c <;> simp [setSession, World.upd, h], [], by simp [setSession, World.upd],
    by simp⟩

theorem Quiet.withWriter {w w' : World ν υ} {c : ConnId} {f} {e : Option Err}
    (h : withWriter srv w c f = .ok (w', e)) : Quiet w w' := by
  rcases withWriter_ok h with ⟨net, er, _, rfl, _⟩ | ⟨net, net', _, _, rfl⟩
  · exact .net _ _
  · exact (Quiet.net w net').trans (.log _ rfl)

theorem Quiet.deregister {w w' : World ν υ} {c : ConnId} {d : Bool} {n : Int}
    (h : deregister srv w c d = .ok (w', n)) : Quiet w w' := by
  rcases deregister_ok h with ⟨_, rfl, _⟩ | ⟨s, _, _, ⟨_, rfl⟩ | ⟨_, _, _, rfl⟩⟩
  · exact .refl _
  · exact .registry _ _
  · exact ⟨rfl, rfl, rfl, fun _ => rfl, [_], rfl, by simp [plain]⟩

theorem Quiet.register {w w' : World ν υ} {c : ConnId} {e : Option Err} (h : register srv w c = .ok (w', e)) :
    Quiet w w' := by
  obtain ⟨s, _, rfl, _⟩ := register_ok h
  exact .registry _ _

theorem Quiet.fulfillMsg {w w' : World ν υ} {c : ConnId} {m : Msg} {enc : Encoding} {payload : Bytes}
    (h : fulfillMsg srv w c m enc payload = .ok w') : Quiet w w' := by
  obtain ⟨e, h⟩ := fulfillMsg_ok h
  exact .withWriter h

theorem Quiet.failMsg {w w' : World ν υ} {c : ConnId} {m : Msg} {re : ReplyErr}
    (h : failMsg srv w c m re = .ok w') : Quiet w w' := by
  rcases failMsg_ok h with ⟨_, rfl⟩ | ⟨_, ⟨e, code, text, _, h⟩ | ⟨_, _, _, _, rfl⟩ | ⟨_, _, _, h⟩⟩
  · exact .refl _
  · exact .withWriter h
  · exact .refl _
  · exact .withWriter h

theorem Quiet.failMsgShutdown {w w' : World ν υ} {c : ConnId} {m : Msg}
    (h : failMsgShutdown srv w c m = .ok w') : Quiet w w' := by
  obtain ⟨net, net', e, _, _, rfl⟩ := failMsgShutdown_ok h
  exact (Quiet.net w net').trans (.log _ rfl)

theorem Quiet.closeSession {w w' : World ν υ} {c : ConnId} {e : Option Err}
    (h : closeSession srv w c = .ok (w', e)) : Quiet w w' := by
  rcases closeSession_ok h with ⟨_, rfl, _⟩ | ⟨_, _, rfl, _⟩ | ⟨_, _, w1, n, hd, hw⟩
  · exact .refl _
  · exact .refl _
  · exact (Quiet.deregister hd).trans ((Quiet.session _ _ _).trans (.withWriter hw))

theorem Quiet.closeSessions {cs : List ConnId} : ∀ {w w' : World ν υ} {es : List (Option Err)},
    closeSessions srv w cs = .ok (w', es) → Quiet w w' := by
  induction cs with
  | nil =>
    intro w w' es h
    rw [(closeSessions_nil h).1]
    exact .refl _
  | cons c cs ih =>
    intro w w' es h
    obtain ⟨w1, e, es', h1, h2, _⟩ := closeSessions_cons h
    exact (Quiet.closeSession h1).trans (ih h2)

theorem Quiet.createSession {w w' : World ν υ} {c : ConnId} {info : Option Nat}
    {e : Option Err} (h : createSession srv w c info = .ok (w', e)) : Quiet w w' := by
  rcases createSession_ok h with ⟨_, rfl, _⟩ | ⟨_, _, rfl, _⟩ | ⟨_, _, _, rfl, _⟩ |
    ⟨_, _, _, user, s, w1, en, _, hn, hrest⟩
  · exact .refl _
  · exact .refl _
  · exact .refl _
  · have h1 : Quiet w w1 := by
      refine (Quiet.user w user).trans ?_
      rcases notifySessionCreated_ok hn with ⟨rfl, _⟩ | ⟨bs, _, h⟩
      · exact .refl _
      · exact .withWriter h
    rcases hrest with ⟨er, _, rfl, _⟩ | ⟨_, _, w2, er, hr, rfl⟩
    · exact h1
    · exact h1.trans ((Quiet.session _ _ _).trans ((Quiet.register hr).trans ((Quiet.user _ _).trans (.log _ rfl))))

/-! ### Closing -/

theorem count_log (w : World ν υ) (c c' : ConnId) :
    (w.log (.sockClose c)).trace.count (.sockClose c') = w.trace.count (.sockClose c') + if c' = c then 1 else 0 := by
  simp only [World.log, List.count_append, List.count_cons, List.count_nil, beq_iff_eq, Ev.sockClose.injEq, Nat.zero_add]
  by_cases h : c = c'
  · simp [h]
  · rw [if_neg h, if_neg fun e => h e.symm]

/-- `unlink`. -/
theorem Like.unlink {w w' : World ν υ} {g : G} {c : ConnId} (h : Like seen w g) (hu : (g.conns c).used = true)
    (hw : Webwire.unlink srv w c = .ok w') : Like seen w' (unlinked g c) := by
  obtain ⟨w1, n, net, e, hd, _, rfl⟩ := unlink_ok hw
  have h := ((Quiet.deregister hd).trans ((Quiet.session w1 c none).trans (Quiet.net _ net))).like h
  generalize ({ setSession w1 c none with net := net } : World ν υ) = w2 at h
  have hg : ∀ i, ((unlinked g c).conns i) = { g.conns i with sockCloses := (g.conns i).sockCloses + if i = c then 1 else 0 } := by
    intro i
    by_cases hi : i = c <;> simp [unlinked, G.upd, hi]
  exact {
    crashed := h.crashed
    shutdown := h.shutdown
    ops := h.ops
    rdy := h.rdy
    active := fun i => by rw [hg]; exact h.active i
    limit := fun i => by rw [hg]; exact h.limit i
    tasks := fun i => by rw [hg]; exact h.tasks i
    slots := fun i => by rw [hg]; exact h.slots i
    used := fun i => by rw [hg]; exact h.used i
    closes := fun i hi => by
      rw [hg] at hi ⊢
      rw [count_log, ← h.closes i hi]
    rejected := fun i hi => by
      rw [hg] at hi
      rw [count_log, if_neg (by rintro rfl; simp_all)]
      exact h.rejected i hi
    unseen := fun i hi => by
      rw [hg, count_log, if_neg (by rintro rfl; have := (h.unseen i hi).1; simp_all)]
      exact h.unseen i hi
    clients := by simpa [World.log, clientsIn, unlinked, G.upd] using h.clients
    calls := by simpa [World.log, callsIn, unlinked, G.upd] using h.calls }

/-- Assigning to the fields of a connection. -/
theorem Like.upd {w : World ν υ} {g : G} (h : Like seen w g) (c : ConnId) (f : Conn → Conn) (f' : LConn → LConn)
    (h1 : (f' (g.conns c)).active = (f (w.conns c)).isActive) (h2 : (f' (g.conns c)).limit = (f (w.conns c)).limit)
    (h3 : (f' (g.conns c)).tasks = (f (w.conns c)).tasks) (h4 : (f' (g.conns c)).slots = (f (w.conns c)).slots)
    (h5 : (f' (g.conns c)).active = true → (g.conns c).active = true)
    (h6 : (f' (g.conns c)).used = (g.conns c).used ∧ (f' (g.conns c)).sockCloses = (g.conns c).sockCloses) :
    Like seen (w.upd c f) (g.upd c f') where
  crashed := h.crashed
  shutdown := h.shutdown
  ops := h.ops
  rdy := h.rdy
  active i := by by_cases hi : i = c <;> simp [G.upd, World.upd, hi, h1, h.active]
  limit i := by by_cases hi : i = c <;> simp [G.upd, World.upd, hi, h2, h.limit]
  tasks i := by by_cases hi : i = c <;> simp [G.upd, World.upd, hi, h3, h.tasks]
  slots i := by by_cases hi : i = c <;> simp [G.upd, World.upd, hi, h4, h.slots]
  used i := by
    by_cases hi : i = c
    · simp only [G.upd, hi, if_true, h6.1]; exact fun ha => h.used c (h5 ha)
    · simp only [G.upd, if_neg hi]; exact h.used i
  closes i := by
    by_cases hi : i = c
    · simp only [G.upd, hi, if_true, h6.1, h6.2]; exact h.closes c
    · simp only [G.upd, if_neg hi]; exact h.closes i
  rejected i := by
    by_cases hi : i = c
    · simp only [G.upd, hi, if_true, h6.1]; exact h.rejected c
    · simp only [G.upd, if_neg hi]; exact h.rejected i
  unseen i := by
    by_cases hi : i = c
    · simp only [G.upd, hi, if_true, h6.1]; exact h.unseen c
    · simp only [G.upd, if_neg hi]; exact h.unseen i
  clients := h.clients
  calls := h.calls

theorem G.upd_same {g : G} {c : ConnId} {f : LConn → LConn} (h : f (g.conns c) = g.conns c) : g.upd c f = g := by
  unfold G.upd
  rw [h]
  congr 1
  funext i
  by_cases hi : i = c <;> simp [hi]

/-- The connections there are remain. -/
def Grown (g g' : G) : Prop := ∀ c, (g.conns c).used = true → (g'.conns c).used = true

theorem Grown.upd {g : G} {c : ConnId} {f : LConn → LConn} (h : (f (g.conns c)).used = (g.conns c).used) :
    Grown g (g.upd c f) := by
  intro i hi
  by_cases hc : i = c
  · subst hc; simpa [G.upd, h] using hi
  · simpa [G.upd, hc] using hi

/-- `Close`. -/
theorem sim_close {w w' : World ν υ} {g : G} {c : ConnId} {rd : Bool} {pre post : List PC}
    (hr : ReachableIf Tidy ⟨g, pre ++ .closing c rd :: post⟩) (h : Like seen w g)
    (hs : ∀ pc ∈ pre ++ post, pc.still = true) (hw : connClose srv w c = .ok w') :
    ∃ g', ReachableIf Tidy ⟨g', pre ++ (closed c rd ++ post)⟩ ∧ Like seen w' g' ∧ Grown g g' := by
  rcases connClose_ok hw with ⟨ha, rfl⟩ | ⟨ha, ⟨ht, hw⟩ | ⟨ht, rfl⟩⟩
  · exact ⟨g, go_closing hr h.crashed hs (by simp [actClosing, h.active, ha]), h, fun _ => id⟩
  · have f1 := go_closing hr h.crashed hs (g' := g.upd c fun x => { x with active := false }) (pcs := [.closeUnlinking c rd])
      (by simp [actClosing, h.active, ha, h.tasks, ht])
    have l1 := h.upd c (fun con => { con with isActive := false }) (fun x => { x with active := false })
      rfl (h.limit c) (h.tasks c) (h.slots c) (by simp) ⟨rfl, rfl⟩
    have hu : ((g.upd c fun x => { x with active := false }).conns c).used = true := by
      simpa [G.upd] using h.used c (by rw [h.active, ha])
    have f2 := go {} f1 h.crashed rfl nofun (show act _ {} (.closeUnlinking c rd) = some (_, _) from rfl)
    exact ⟨_, f2, l1.unlink hu hw, fun i hi => Grown.upd rfl i (Grown.upd (g := g) rfl i hi)⟩
  · have f1 := go_closing hr h.crashed hs (g' := g.upd c fun x => { x with active := false }) (pcs := closed c rd)
      (by simp [actClosing, h.active, ha, h.tasks, ht])
    exact ⟨_, f1, h.upd c (fun con => { con with isActive := false }) (fun x => { x with active := false })
      rfl (h.limit c) (h.tasks c) (h.slots c) (by simp) ⟨rfl, rfl⟩, Grown.upd rfl⟩

/-- An API call. -/
theorem sim_api {w w' : World ν υ} {g : G} {a : ApiCall} {ts : List PC} (hr : ReachableIf Tidy ⟨g, ts⟩) (h : Like seen w g)
    (hs : ∀ pc ∈ ts, pc.still = true) (hw : runApi srv w a = .ok w') :
    ∃ g', ReachableIf Tidy ⟨g', ts⟩ ∧ Like seen w' g' ∧ Grown g g' := by
  have quiet : Quiet w w' → ∃ g', ReachableIf Tidy ⟨g', ts⟩ ∧ Like seen w' g' ∧ Grown g g' :=
    fun q => ⟨g, hr, q.like h, fun _ => id⟩
  cases a with
  | signal c name enc payload =>
    obtain ⟨b, hw⟩ := map_fst_ok hw
    rcases signal_ok hw with ⟨rfl, _⟩ | hw
    · exact quiet (.refl _)
    · exact quiet (.withWriter hw)
  | createSession c info => obtain ⟨b, hw⟩ := map_fst_ok hw; exact quiet (.createSession hw)
  | closeSession c => obtain ⟨b, hw⟩ := map_fst_ok hw; exact quiet (.closeSession hw)
  | srvCloseSession key order =>
    obtain ⟨b, hw⟩ := map_fst_ok hw
    rcases srvCloseSession_ok hw with ⟨_, rfl, _⟩ | ⟨_, _, _, _, _, _, hw, _⟩
    · exact quiet (.refl _)
    · exact quiet (.closeSessions hw)
  | close c =>
    change connClose srv w c = .ok w' at hw
    by_cases ha : (w.conns c).isActive = true
    · have f1 := ReachableIf.step _ (.close c) _ hr ⟨nofun, nofun⟩ (.close g ts c h.crashed (h.used c (by rw [h.active, ha])))
      exact sim_close (pre := []) (rd := false) f1 h hs hw
    · rcases connClose_ok hw with ⟨_, rfl⟩ | ⟨ha', _⟩
      · exact quiet (.refl _)
      · exact absurd ha' ha

theorem sim_apis {as : List ApiCall} {ts : List PC} (hs : ∀ pc ∈ ts, pc.still = true) : ∀ {w w' : World ν υ} {g : G},
    ReachableIf Tidy ⟨g, ts⟩ → Like seen w g → runApis srv w as = .ok w' →
    ∃ g', ReachableIf Tidy ⟨g', ts⟩ ∧ Like seen w' g' ∧ Grown g g' := by
  induction as with
  | nil =>
    intro w w' g hr h hw
    simp only [Webwire.runApis, Except.ok.injEq] at hw
    subst hw
    exact ⟨g, hr, h, fun _ => id⟩
  | cons a as ih =>
    intro w w' g hr h hw
    obtain ⟨w1, h1, h2⟩ := runApis_cons hw
    obtain ⟨g1, r1, l1, u1⟩ := sim_api hr h hs h1
    obtain ⟨g2, r2, l2, u2⟩ := ih r1 l1 h2
    exact ⟨g2, r2, l2, fun i hi => u2 i (u1 i hi)⟩

/-! ### Messages -/

/-- The kind of a message. -/
def kindOf (m : Msg) : Kind :=
  if m.msgType = MsgHeartbeat then .heartbeat
  else if m.msgType = MsgSignalBinary ∨ m.msgType = MsgSignalUtf8 ∨ m.msgType = MsgSignalUtf16 then .signal
  else if m.msgType = MsgRequestBinary ∨ m.msgType = MsgRequestUtf8 ∨ m.msgType = MsgRequestUtf16 then .request
  else if m.msgType = MsgRequestRestoreSession ∨ m.msgType = MsgRequestCloseSession then .session
  else .other

theorem kindOf_requiresReply (m : Msg) (n : Nat) : LMsg.requiresReply ⟨kindOf m, n⟩ = m.requiresReply := by
  unfold LMsg.requiresReply Msg.requiresReply kindOf
  by_cases h1 : m.msgType = MsgHeartbeat
  · simp [h1, MsgHeartbeat, MsgRequestCloseSession, MsgRequestRestoreSession, MsgRequestBinary, MsgRequestUtf8, MsgRequestUtf16]
  by_cases h2 : m.msgType = MsgSignalBinary ∨ m.msgType = MsgSignalUtf8 ∨ m.msgType = MsgSignalUtf16
  · rcases h2 with h | h | h <;> simp [h, MsgHeartbeat, MsgSignalBinary, MsgSignalUtf8, MsgSignalUtf16, MsgRequestCloseSession,
      MsgRequestRestoreSession, MsgRequestBinary, MsgRequestUtf8, MsgRequestUtf16]
  by_cases h3 : m.msgType = MsgRequestBinary ∨ m.msgType = MsgRequestUtf8 ∨ m.msgType = MsgRequestUtf16
  · rw [if_neg h1, if_neg h2, if_pos h3]
    rcases h3 with h | h | h <;> simp [h]
  by_cases h4 : m.msgType = MsgRequestRestoreSession ∨ m.msgType = MsgRequestCloseSession
  · rw [if_neg h1, if_neg h2, if_neg h3, if_pos h4]
    rcases h4 with h | h <;> simp [h]
  · rw [if_neg h1, if_neg h2, if_neg h3, if_neg h4]
    simp only [not_or] at h3 h4
    simp [h3, h4]

/-- The counter and the channel. -/
theorem Like.counted {w : World ν υ} {g : G} (h : Like seen w g) (n : UInt32) (b : Bool) :
    Like seen { w with currentOps := n, rdyClosed := b } { g with currentOps := n, rdyClosed := b } :=
  { h with ops := rfl, rdy := rfl }

theorem Like.logged {w : World ν υ} {g : G} (h : Like seen w g) (e : LEv) (he : callsOf [e] = []) :
    Like seen w (g.ev e) :=
  { h with
    calls := by
      rw [← h.calls]
      change callsOf (g.log ++ [e]) = callsOf g.log
      have := he
      unfold callsOf at this ⊢
      rw [List.filterMap_append, this, List.append_nil] }

/-- The user's code is called. -/
theorem Like.called {w : World ν υ} {g : G} (h : Like seen w g) (e : LEv) (e' : Ev) (u : υ) (he : callsOf [e] = callsIn [e'])
    (h1 : clientsIn [e'] = []) (h2 : ∀ c, e' ≠ .sockClose c) : Like seen { w.log e' with user := u } (g.ev e) := by
  have hc : ∀ c, (w.log e').trace.count (.sockClose c) = w.trace.count (.sockClose c) := fun c => by
    have : [e'].count (.sockClose c) = 0 := by
      rw [List.count_eq_zero]
      simpa using fun e => h2 c e.symm
    simp only [World.log, List.count_append, this, Nat.add_zero]
  exact { h with
    closes := fun c hu => by rw [show ({ w.log e' with user := u } : World ν υ).trace = (w.log e').trace from rfl, hc]; exact h.closes c hu
    rejected := fun c hu => by rw [show ({ w.log e' with user := u } : World ν υ).trace = (w.log e').trace from rfl, hc]; exact h.rejected c hu
    unseen := fun c hu => by rw [show ({ w.log e' with user := u } : World ν υ).trace = (w.log e').trace from rfl, hc]; exact h.unseen c hu
    clients := by
      rw [show (g.ev e).connections = g.connections from rfl, h.clients]
      change clientsIn w.trace = clientsIn (w.trace ++ [e'])
      unfold clientsIn at h1 ⊢
      rw [List.filterMap_append, h1, List.append_nil]
    calls := by
      change callsOf (g.log ++ [e]) = callsIn (w.trace ++ [e'])
      have := h.calls
      unfold callsOf callsIn at this he ⊢
      rw [List.filterMap_append, List.filterMap_append, this, he] }

/-- `deregisterHandler`. -/
theorem sim_deregister {w w' : World ν υ} {g : G} {c : ConnId} {inl : Bool} {pre post : List PC}
    (hr : ReachableIf Tidy ⟨g, pre ++ .uncounting c inl :: post⟩) (h : Like seen w g) (hu : (g.conns c).used = true)
    (hw : deregisterHandler srv w c = .ok w') :
    ∃ g', ReachableIf Tidy ⟨g', pre ++ (resume c inl ++ post)⟩ ∧ Like seen w' g' ∧ Grown g g' := by
  obtain ⟨hp, w1, h1, hsl, rfl⟩ := deregisterHandler_ok hw
  -- the counter
  have s1 : ∃ g1, act g {} (.uncounting c inl) = some (g1, [.untasking c inl]) ∧ Like seen (opsDone w) g1 ∧ g1.conns = g.conns := by
    by_cases hz : w.shutdown = true ∧ w.currentOps - 1 < 1
    · refine ⟨{ g with currentOps := w.currentOps - 1, rdyClosed := true }, ?_, ?_, rfl⟩
      · have hn : g.rdyClosed = false := by
          rw [h.rdy]; simpa using fun hb => hp ⟨hz, hb⟩
        simp [act, actUncounting, h.ops, h.shutdown, hz, hn]
      · have := h.counted (w.currentOps - 1) true
        unfold opsDone
        rw [if_pos (by simpa using hz)]
        exact this
    · refine ⟨{ g with currentOps := w.currentOps - 1 }, ?_, ?_, rfl⟩
      · simp only [act, actUncounting, h.ops, h.shutdown]
        rw [if_neg hz]
      · have := h.counted (w.currentOps - 1) w.rdyClosed
        unfold opsDone
        rw [if_neg (by simpa using hz)]
        have e : ({ g with currentOps := w.currentOps - 1 } : G) = { g with currentOps := w.currentOps - 1, rdyClosed := w.rdyClosed } := by
          rw [← h.rdy]
        rw [e]; exact this
  obtain ⟨g1, a1, l1, c1⟩ := s1
  have f1 := go {} hr h.crashed rfl nofun a1
  -- the task
  have s2 : ∃ g2, ReachableIf Tidy ⟨g2, pre ++ .releasing c inl :: post⟩ ∧ Like seen w1 g2 ∧ Grown g1 g2 := by
    have l2 := l1.upd c (fun con => { con with tasks := con.tasks - 1 }) (fun x => { x with tasks := x.tasks - 1 })
      (l1.active c) (l1.limit c) (by simp [l1.tasks c]) (l1.slots c) id ⟨rfl, rfl⟩
    rcases deregisterTask_ok h1 with ⟨ha, ht, h1⟩ | ⟨hn, rfl⟩
    · have f2 := go {} f1 l1.crashed rfl nofun (g' := g1.upd c fun x => { x with tasks := x.tasks - 1 }) (pcs := [.unlinking c inl])
        (by
          simp only [act, actUntasking, Option.some.injEq, Prod.mk.injEq, true_and, List.cons.injEq, and_true]
          rw [if_pos]
          simp only [G.upd, if_true, l1.active, l1.tasks]
          exact ⟨ha, by omega⟩)
      have f3 := go {} f2 l1.crashed rfl nofun (show act _ {} (.unlinking c inl) = some (_, _) from rfl)
      have hu2 : ((g1.upd c fun x => { x with tasks := x.tasks - 1 }).conns c).used = true := by
        simpa [G.upd, c1] using hu
      exact ⟨_, f3, l2.unlink hu2 h1, fun i hi => Grown.upd rfl i (Grown.upd (g := g1) rfl i hi)⟩
    · have f2 := go {} f1 l1.crashed rfl nofun (g' := g1.upd c fun x => { x with tasks := x.tasks - 1 }) (pcs := [.releasing c inl])
        (by
          simp only [act, actUntasking, Option.some.injEq, Prod.mk.injEq, true_and, List.cons.injEq, and_true]
          rw [if_neg]
          simp only [G.upd, if_true, l1.active, l1.tasks]
          rintro ⟨a, b⟩
          exact hn ⟨a, by omega⟩)
      exact ⟨_, f2, l2, Grown.upd rfl⟩
  obtain ⟨g2, f2, l2, u2⟩ := s2
  -- the slot
  have l3 := l2.upd c (fun con => { con with slots := if con.limit > 1 then con.slots - 1 else con.slots })
    (fun x => { x with slots := if x.limit > 1 then x.slots - 1 else x.slots })
    (l2.active c) (l2.limit c) (l2.tasks c) (by simp [l2.slots c, l2.limit c]) id ⟨rfl, rfl⟩
  refine ⟨_, go {} f2 l2.crashed rfl nofun ?_, l3, fun i hi => Grown.upd (g := g2) rfl i (u2 i (by rw [c1]; exact hi))⟩
  simp only [act, actReleasing]
  by_cases hl : (g2.conns c).limit > 1
  · rw [if_pos hl, if_neg (by rw [l2.slots]; rw [l2.limit] at hl; exact fun hx => hsl ⟨hl, hx⟩)]
    simp only [Option.some.injEq, Prod.mk.injEq, and_true, G.upd, G.mk.injEq, true_and]
    funext i
    by_cases hi : i = c <;> simp [hi, hl]
  · rw [if_neg hl]
    rw [G.upd_same (by simp [hl])]

/-- The first half of `registerHandler`. -/
theorem sim_acquire {w : World ν υ} {g : G} {c : ConnId} {m : LMsg} {pre post : List PC}
    (hr : ReachableIf Tidy ⟨g, pre ++ .checking c m :: post⟩) (h : Like seen w g) (ha : (w.conns c).isActive = true)
    (hf : ¬ ((w.conns c).limit > 1 ∧ ((w.conns c).slots : Int) ≥ (w.conns c).limit)) :
    ∃ g', ReachableIf Tidy ⟨g', pre ++ .counting c m :: post⟩ ∧ Like seen (slotTaken w c) g' ∧ Grown g g' := by
  have f1 := go {} hr h.crashed rfl nofun (g' := g) (pcs := [.acquiring c m]) (by simp [act, actChecking, h.active, ha])
  have l2 := h.upd c (fun con => { con with slots := if con.limit > 1 then con.slots + 1 else con.slots })
    (fun x => { x with slots := if x.limit > 1 then x.slots + 1 else x.slots })
    (h.active c) (h.limit c) (h.tasks c) (by simp [h.slots c, h.limit c]) id ⟨rfl, rfl⟩
  have f2 := go {} f1 h.crashed rfl nofun (g' := g.upd c fun x => { x with slots := if x.limit > 1 then x.slots + 1 else x.slots })
    (pcs := [.counting c m]) (by
      simp only [act, actAcquiring]
      by_cases hl : (g.conns c).limit > 1
      · rw [if_pos hl, if_neg (by rw [h.slots, h.limit]; rw [h.limit] at hl; exact fun hx => hf ⟨hl, hx⟩)]
        simp only [Option.some.injEq, Prod.mk.injEq, and_true, G.upd, G.mk.injEq, true_and]
        funext i
        by_cases hi : i = c <;> simp [hi, hl]
      · rw [if_neg hl]
        rw [G.upd_same (by simp [hl])])
  exact ⟨_, f2, l2, Grown.upd (f := fun x => { x with slots := if x.limit > 1 then x.slots + 1 else x.slots }) rfl⟩

/-- `registerHandler` lets the message in. -/
theorem sim_register {w : World ν υ} {g : G} {c : ConnId} {m : LMsg} {pre post : List PC}
    (hr : ReachableIf Tidy ⟨g, pre ++ .checking c m :: post⟩) (h : Like seen w g) (ha : (w.conns c).isActive = true)
    (hf : ¬ ((w.conns c).limit > 1 ∧ ((w.conns c).slots : Int) ≥ (w.conns c).limit))
    (hn : ¬ (w.shutdown = true ∧ m.requiresReply = true)) :
    ∃ g', ReachableIf Tidy ⟨g', pre ++ .dispatching c m :: post⟩ ∧ Like seen (registered w c) g' ∧ Grown g g' := by
  obtain ⟨g2, f2, l2, u2⟩ := sim_acquire hr h ha hf
  have l3 : Like seen { slotTaken w c with currentOps := if w.shutdown then w.currentOps else w.currentOps + 1 }
      { g2 with currentOps := if w.shutdown then w.currentOps else w.currentOps + 1 } := { l2 with ops := rfl }
  have f3 := go {} f2 l2.crashed rfl nofun (g' := { g2 with currentOps := if w.shutdown then w.currentOps else w.currentOps + 1 })
    (pcs := [.tasking c m]) (by
      have e1 : g2.shutdown = w.shutdown := l2.shutdown
      have e2 : g2.currentOps = w.currentOps := l2.ops
      simp only [act, actCounting]
      by_cases hsd : w.shutdown = true
      · have : m.requiresReply = false := by simpa using fun hx => hn ⟨hsd, hx⟩
        rw [if_pos (by rw [e1]; exact hsd), if_pos hsd, ← e2]
        simp [this]
      · rw [if_neg (by rw [e1]; exact hsd), if_neg hsd, e2])
  have f4 := go {} f3 l3.crashed rfl nofun (show act _ {} (.tasking c m) = some (_, _) from rfl)
  refine ⟨_, f4, l3.upd c (fun con => { con with tasks := con.tasks + 1 }) (fun x => { x with tasks := x.tasks + 1 })
    (l3.active c) (l3.limit c) (congrArg (· + 1) (l3.tasks c)) (l3.slots c) id ⟨rfl, rfl⟩, fun i hi => Grown.upd rfl i ?_⟩
  exact u2 i hi

/-- `registerHandler` refuses the message. -/
theorem sim_refuse {w : World ν υ} {g : G} {c : ConnId} {m : LMsg} {pre post : List PC}
    (hr : ReachableIf Tidy ⟨g, pre ++ .checking c m :: post⟩) (h : Like seen w g) (ha : (w.conns c).isActive = true)
    (hf : ¬ ((w.conns c).limit > 1 ∧ ((w.conns c).slots : Int) ≥ (w.conns c).limit))
    (hn : w.shutdown = true) (hq : m.requiresReply = true) :
    ∃ g', ReachableIf Tidy ⟨g', pre ++ .reading c :: post⟩ ∧ Like seen (slotTaken w c) g' ∧ Grown g g' := by
  obtain ⟨g2, f2, l2, u2⟩ := sim_acquire hr h ha hf
  have f3 := go {} f2 l2.crashed rfl nofun (g' := g2) (pcs := [.refusing c m]) (by
    have : g2.shutdown = true := by rw [l2.shutdown]; exact hn
    simp [act, actCounting, this, hq])
  have f4 := go {} f3 l2.crashed rfl nofun (g' := g2.ev (.refused c m)) (pcs := [.reading c]) (by simp [act, actRefusing])
  exact ⟨_, f4, l2.logged _ rfl, u2⟩

/-- A handler, from its begin to the end of what the hook does. -/
theorem sim_handler {w w1 w' : World ν υ} {g : G} {c : ConnId} {m : LMsg} {inl : Bool} {pre post : List PC}
    (hr : ReachableIf Tidy ⟨g, pre ++ .running c m inl :: post⟩) (h : Like seen w g) (hu : (g.conns c).used = true)
    (hs : ∀ pc ∈ pre ++ post, pc.still = true) {as : List ApiCall} (ha : runApis srv w as = .ok w1)
    {w2 : World ν υ} (hq : Quiet w1 w2) (hw : deregisterHandler srv w2 c = .ok w') :
    ∃ g', ReachableIf Tidy ⟨g', pre ++ (resume c inl ++ post)⟩ ∧ Like seen (releaseMsg w') g' ∧ Grown g g' := by
  obtain ⟨g1, r1, l1, u1⟩ := sim_apis (ts := pre ++ .running c m inl :: post) (by
    intro pc hp
    simp only [List.mem_append, List.mem_cons] at hp hs
    rcases hp with hp | rfl | hp
    · exact hs pc (.inl hp)
    · rfl
    · exact hs pc (.inr hp)) hr h ha
  have f2 := go {} r1 l1.crashed rfl nofun (show act g1 {} (.running c m inl) = some (g1.ev (.finish c m), [.uncounting c inl]) from rfl)
  obtain ⟨g3, r3, l3, u3⟩ := sim_deregister f2 ((hq.like l1).logged (.finish c m) rfl) (u1 c hu) hw
  exact ⟨g3, r3, (Quiet.log _ rfl).like l3, fun i hi => u3 i (u1 i hi)⟩

theorem resumed (c : ConnId) (inl : Bool) (pre post : List PC) :
    pre ++ (resume c inl ++ ((if inl then [] else [.reading c]) ++ post)) = pre ++ .reading c :: post := by
  cases inl <;> simp [resume]

/-- Dispatch of a message that gets a handler. -/
theorem sim_dispatch {g : G} {c : ConnId} {m : LMsg} {pre post : List PC}
    (hr : ReachableIf Tidy ⟨g, pre ++ .dispatching c m :: post⟩) (hc : g.crashed = none)
    (hk : m.kind = .signal ∨ m.kind = .request ∨ m.kind = .session) :
    ∃ inl, ReachableIf Tidy ⟨g.ev (.start c m), pre ++ .running c m inl :: ((if inl then [] else [.reading c]) ++ post)⟩ := by
  have key : ∃ inl, act g {} (.dispatching c m) = some (g, .starting c m inl :: if inl then [] else [.reading c]) := by
    simp only [act, actDispatching]
    rcases hk with hk | hk | hk <;> simp only [hk]
    · by_cases hl : (g.conns c).limit < 0 ∨ (g.conns c).limit > 1
      · exact ⟨false, by simp [hl]⟩
      · exact ⟨true, by simp [hl]⟩
    · by_cases hl : (g.conns c).limit < 0 ∨ (g.conns c).limit > 1
      · exact ⟨false, by simp [hl]⟩
      · exact ⟨true, by simp [hl]⟩
    · exact ⟨true, by simp⟩
  obtain ⟨inl, ha⟩ := key
  have f1 := go {} hr hc rfl nofun ha
  have f2 := go {} (pc := .starting c m inl) (pre := pre) (post := (if inl then [] else [.reading c]) ++ post) (by simpa using f1) hc rfl nofun
    (show act g {} (.starting c m inl) = some (g.ev (.start c m), [.running c m inl]) from rfl)
  exact ⟨inl, f2⟩

theorem sim_message {w w' : World ν υ} {g : G} {c : ConnId} {m : Msg} (n : Nat) {pre post : List PC}
    (hr : ReachableIf Tidy ⟨g, pre ++ .reading c :: post⟩) (h : Like seen w g) (hu : (g.conns c).used = true)
    (hs : ∀ pc ∈ pre ++ post, pc.still = true) (hw : handleMessage srv w c m = .ok w') :
    ∃ g', ReachableIf Tidy ⟨g', pre ++ .reading c :: post⟩ ∧ Like seen w' g' ∧ Grown g g' := by
  rcases handleMessage_ok hw with ⟨ht, rfl⟩ | ⟨ht, w1, b, hreg, hb⟩
  · have hk : kindOf m = .heartbeat := by simp [kindOf, ht]
    have f1 := go { msg := some ⟨kindOf m, n⟩ } hr h.crashed rfl nofun (g' := g.ev (.arrived c ⟨kindOf m, n⟩)) (pcs := [.reading c])
      (by simp [act, actReading, hk])
    exact ⟨_, f1, ((Quiet.log _ rfl).like h).logged _ rfl, fun _ => id⟩
  · have hk : kindOf m ≠ .heartbeat := by
      unfold kindOf
      rw [if_neg ht]
      repeat' split
      all_goals simp
    have f1 := go { msg := some ⟨kindOf m, n⟩ } hr h.crashed rfl nofun (g' := g.ev (.arrived c ⟨kindOf m, n⟩))
      (pcs := [.checking c ⟨kindOf m, n⟩]) (by simp [act, actReading, hk])
    have l1 := h.logged (.arrived c ⟨kindOf m, n⟩) rfl
    have u1 : Grown g (g.ev (.arrived c ⟨kindOf m, n⟩)) := fun _ => id
    generalize g.ev (.arrived c ⟨kindOf m, n⟩) = g1 at f1 l1 u1
    rcases registerHandler_ok hreg with ⟨ha, rfl, rfl⟩ | ⟨ha, hf, ⟨hsd, hq, rfl, hfail⟩ | ⟨hn, rfl, rfl⟩⟩
    · have f2 := go {} f1 l1.crashed rfl nofun (g' := g1.ev (.dropped c ⟨kindOf m, n⟩)) (pcs := [.reading c])
        (by simp [act, actChecking, l1.active, ha])
      rcases hb with ⟨_, rfl⟩ | ⟨hb, _⟩
      · exact ⟨_, f2, ((Quiet.log _ rfl).like l1).logged _ rfl, u1⟩
      · cases hb
    · obtain ⟨g2, f2, l2, u2⟩ := sim_refuse f1 l1 ha hf hsd (by rw [kindOf_requiresReply]; exact hq)
      rcases hb with ⟨_, rfl⟩ | ⟨hb, _⟩
      · exact ⟨_, f2, ((Quiet.failMsgShutdown hfail).trans (.log _ rfl)).like l2, fun i hi => u2 i (u1 i hi)⟩
      · cases hb
    · obtain ⟨g2, f2, l2, u2⟩ := sim_register f1 l1 ha hf (by rw [kindOf_requiresReply]; exact hn)
      have hu2 := u2 c (u1 c hu)
      have still : ∀ inl : Bool, ∀ pc ∈ pre ++ ((if inl then [] else [.reading c]) ++ post), pc.still = true := by
        intro inl pc hp
        simp only [List.mem_append] at hp hs
        rcases hp with hp | hp | hp
        · exact hs pc (.inl hp)
        · cases inl <;> simp at hp
          subst hp; rfl
        · exact hs pc (.inr hp)
      have finish : ∀ {w3 w4 : World ν υ} {g3 : G} {inl : Bool} {as : List ApiCall} {w5 w6 : World ν υ},
          ReachableIf Tidy ⟨g3, pre ++ .running c ⟨kindOf m, n⟩ inl :: ((if inl then [] else [.reading c]) ++ post)⟩ →
          Like seen w3 g3 → Grown g2 g3 → runApis srv w3 as = .ok w4 → Quiet w4 w5 → deregisterHandler srv w5 c = .ok w6 →
          ∃ g', ReachableIf Tidy ⟨g', pre ++ .reading c :: post⟩ ∧ Like seen (releaseMsg w6) g' ∧ Grown g g' := by
        intro w3 w4 g3 inl as w5 w6 r3 l3 u3 ha hq hd
        obtain ⟨g4, r4, l4, u4⟩ := sim_handler r3 l3 (u3 c hu2) (still inl) ha hq hd
        rw [resumed] at r4
        exact ⟨g4, r4, l4, fun i hi => u4 i (u3 i (u2 i (u1 i hi)))⟩
      rcases hb with ⟨hb, _⟩ | ⟨_, ⟨hm, hw⟩ | ⟨hm, hw⟩ | ⟨hm, hw⟩ | ⟨hm, hw⟩ | ⟨hm, w3, hd, rfl⟩⟩
      · cases hb
      · have hkm : kindOf m = .signal := by simp [kindOf, ht, hm]
        obtain ⟨inl, r3⟩ := sim_dispatch f2 l2.crashed (by simp [hkm])
        obtain ⟨w3, w4, hapi, hd, rfl⟩ := handleSignal_ok hw
        refine finish r3 (l2.called (.start c ⟨kindOf m, n⟩) (.onSignal c _ _ _) _ ?_ rfl nofun) (fun _ => id) hapi (.refl _) hd
        simp [callsOf, callsIn, hkm]
      · have hkm : kindOf m = .request := by
          have hm' : ¬ (m.msgType = MsgSignalBinary ∨ m.msgType = MsgSignalUtf8 ∨ m.msgType = MsgSignalUtf16) := by
            rcases hm with hm | hm | hm <;> rw [hm] <;> decide
          simp [kindOf, ht, hm, hm']
        obtain ⟨inl, r3⟩ := sim_dispatch f2 l2.crashed (by simp [hkm])
        obtain ⟨w3, w4, w5, hapi, hq, hd, rfl⟩ := handleRequest_ok hw
        have hq : Quiet w3 w4 := by
          rcases hq with ⟨_, hq⟩ | ⟨_, hq⟩
          · exact .fulfillMsg hq
          · exact .failMsg hq
        refine finish r3 (l2.called (.start c ⟨kindOf m, n⟩) (.onRequest c _ _ _ _) _ ?_ rfl nofun) (fun _ => id) hapi hq hd
        simp [callsOf, callsIn, hkm]
      · have hkm : kindOf m = .session := by unfold kindOf; rw [hm]; decide
        obtain ⟨inl, r3⟩ := sim_dispatch f2 l2.crashed (by simp [hkm])
        obtain ⟨w4, w5, hq, hd, rfl⟩ := handleSessionRestore_ok hw
        have hl : ∀ w : World ν υ, ∀ k, Quiet w (lookedUp srv w k) := fun w k => (Quiet.user w _).trans (.log _ rfl)
        have hq : Quiet (registered w c) w4 := by
          rcases hq with ⟨_, h⟩ | ⟨_, _, h⟩ | ⟨_, _, _, h⟩ | ⟨_, _, _, h⟩ | ⟨r, _, _, _, _, h⟩ | ⟨r, encoded, w1, _, _, _, _, hr, h⟩
          · exact .failMsg h
          · exact .failMsg h
          · exact (hl _ _).trans (.failMsg h)
          · exact (hl _ _).trans (.failMsg h)
          · exact (hl _ _).trans (.failMsg h)
          · exact (hl _ _).trans ((Quiet.session _ _ _).trans ((Quiet.register hr).trans (.fulfillMsg h)))
        exact finish r3 (l2.logged _ (by simp [callsOf, hkm])) (fun _ => id) (as := []) rfl hq hd
      · have hkm : kindOf m = .session := by unfold kindOf; rw [hm]; decide
        obtain ⟨inl, r3⟩ := sim_dispatch f2 l2.crashed (by simp [hkm])
        obtain ⟨w4, w5, hq, hd, rfl⟩ := handleSessionClosure_ok hw
        have hq : Quiet (registered w c) w4 := by
          rcases hq with ⟨_, h⟩ | ⟨_, _, h⟩ | ⟨_, _, w1, k, hdr, h⟩
          · exact .failMsg h
          · exact .fulfillMsg h
          · exact (Quiet.deregister hdr).trans ((Quiet.session _ _ _).trans (.fulfillMsg h))
        exact finish r3 (l2.logged _ (by simp [callsOf, hkm])) (fun _ => id) (as := []) rfl hq hd
      · have hkm : kindOf m = .other := by simp [kindOf, ht, hm]
        have f3 := go {} f2 l2.crashed rfl nofun (g' := g2) (pcs := [.uncounting c true]) (by simp [act, actDispatching, hkm])
        obtain ⟨g3, r3, l3, u3⟩ := sim_deregister f3 l2 hu2 hd
        exact ⟨g3, r3, (Quiet.log _ rfl).like l3, fun i hi => u3 i (u2 i (u1 i hi))⟩

/-- The reader fails. -/
theorem sim_disconnect {w w' : World ν υ} {g : G} {c : ConnId} {pre post : List PC}
    (hr : ReachableIf Tidy ⟨g, pre ++ .reading c :: post⟩) (h : Like seen w g)
    (hs : ∀ pc ∈ pre ++ post, pc.still = true) (hw : disconnect srv w c = .ok w') :
    ∃ g', ReachableIf Tidy ⟨g', pre ++ post⟩ ∧ Like seen w' g' ∧ Grown g g' := by
  unfold disconnect at hw
  obtain ⟨w1, h1, hw⟩ := bind_ok hw
  have f1 := go { msg := none } hr h.crashed rfl nofun (show act g { msg := none } (.reading c) = some (g, [.closing c true]) from rfl)
  obtain ⟨g1, r1, l1, u1⟩ := sim_close f1 ((Quiet.log w (e := .msgClose) rfl).like h) hs h1
  have f2 := go {} (pc := .disconnecting c) r1 l1.crashed rfl nofun (show act g1 {} (.disconnecting c) = some (g1.ev (.disconnected c), []) from rfl)
  obtain ⟨g3, r3, l3, u3⟩ := sim_apis hs f2 (l1.called (.disconnected c) (.onClientDisconnected c)
    (srv.hooks.onClientDisconnected w1.user c).1 rfl rfl nofun) hw
  exact ⟨g3, r3, l3, fun i hi => u3 i (u1 i hi)⟩

/-! ### Histories -/

/-- An execution of `Model/Lifecycle` that does the same. Between the things that happen only readers, and calls of
`Shutdown` that wait, are left. -/
structure Mirrors (w : World ν υ) (seen open' : List ConnId) (s : State) : Prop where
  reach : ReachableIf Tidy s
  like : Like seen w s.g
  threads : ∃ k, s.threads.Perm (open'.map PC.reading ++ List.replicate k PC.waiting)
  used : ∀ c ∈ open', (s.g.conns c).used = true

theorem Mirrors.still {w : World ν υ} {open' : List ConnId} {s : State} (h : Mirrors w seen open' s) :
    ∀ pc ∈ s.threads, pc.still = true := by
  obtain ⟨k, hk⟩ := h.threads
  intro pc hp
  rw [hk.mem_iff] at hp
  simp only [List.mem_append, List.mem_map, List.mem_replicate] at hp
  rcases hp with ⟨c, _, rfl⟩ | ⟨_, rfl⟩ <;> rfl

theorem Mirrors.reader {w : World ν υ} {open' : List ConnId} {s : State} (h : Mirrors w seen open' s) {c : ConnId}
    (hc : c ∈ open') : ∃ pre post, s.threads = pre ++ .reading c :: post ∧ ∀ pc ∈ pre ++ post, pc.still = true := by
  obtain ⟨k, hk⟩ := h.threads
  have : PC.reading c ∈ s.threads := by
    rw [hk.mem_iff]
    exact List.mem_append_left _ (List.mem_map_of_mem hc)
  obtain ⟨pre, post, e⟩ := List.append_of_mem this
  refine ⟨pre, post, e, fun pc hp => h.still pc ?_⟩
  rw [e]
  simp only [List.mem_append, List.mem_cons] at hp ⊢
  exact hp.elim .inl fun hp => .inr (.inr hp)

theorem Like.mono {seen' : List ConnId} {w : World ν υ} {g : G} (h : Like seen w g) (hs : ∀ c, c ∈ seen → c ∈ seen') :
    Like seen' w g :=
  { h with unseen := fun c hc => h.unseen c fun hm => hc (hs c hm) }

theorem mirrors {w : World ν υ} {open' : List ConnId} (h : Seriatim srv w seen open') :
    ∃ s, Mirrors w seen open' s := by
  induction h with
  | start w hs h1 h2 h3 =>
    refine ⟨{}, .start, ⟨rfl, h1.symm, h2.symm, h3.symm, ?_, ?_, ?_, ?_, ?_, ?_, ?_, ?_, ?_, ?_⟩, ⟨0, .refl _⟩, by simp⟩
    · intro c; rw [hs.conns c]
    · intro c; rw [hs.conns c]
    · intro c; rw [hs.conns c]
    · intro c; rw [hs.conns c]
    · intro c hc; cases hc
    · intro c hc; cases hc
    · intro c _; rw [hs.trace]; exact Nat.zero_le _
    · intro c _; rw [hs.trace]; exact ⟨rfl, rfl⟩
    · rw [hs.trace]; rfl
    · rw [hs.trace]; rfl
  | accept w w1 w' seen open' c limit _ hc h1 h2 ih =>
    obtain ⟨s, m⟩ := ih
    unfold handleConnection at h2
    rw [h1] at h2
    simp only [bind, Except.bind] at h2
    have l1 := (Quiet.withWriter h1).like m.like
    obtain ⟨hu, hz⟩ := l1.unseen c hc
    have f1 := ReachableIf.step _ (.connect c limit) _ m.reach ⟨nofun, nofun⟩ (.connect s.g s.threads c limit m.like.crashed hu)
    have l2 : Like (c :: seen) ({ (w1.upd c fun _ => { limit := limit, isActive := true }).log (.onClientConnected c) with
        user := (srv.hooks.onClientConnected w1.user c).1 }) (connected s.g c limit) := by
      have ht : ∀ i, (w1.trace ++ [Ev.onClientConnected c]).count (.sockClose i) = w1.trace.count (.sockClose i) := by
        intro i
        rw [List.count_append]
        simp
      refine ⟨l1.crashed, l1.shutdown, l1.ops, l1.rdy, ?_, ?_, ?_, ?_, ?_, ?_, ?_, ?_, ?_, ?_⟩
      · intro i; by_cases hi : i = c <;> simp [connected, World.log, World.upd, hi, l1.active]
      · intro i; by_cases hi : i = c <;> simp [connected, World.log, World.upd, hi, l1.limit]
      · intro i; by_cases hi : i = c <;> simp [connected, World.log, World.upd, hi, l1.tasks]
      · intro i; by_cases hi : i = c <;> simp [connected, World.log, World.upd, hi, l1.slots]
      · intro i
        by_cases hi : i = c
        · simp [connected, hi]
        · simp only [connected, if_neg hi]; exact l1.used i
      · intro i
        simp only [World.log, World.upd]
        rw [ht]
        by_cases hi : i = c
        · simp [connected, hi, hz]
        · simp only [connected, if_neg hi]; exact l1.closes i
      · intro i
        simp only [World.log, World.upd]
        rw [ht]
        by_cases hi : i = c
        · simp [connected, hi]
        · simp only [connected, if_neg hi]; exact l1.rejected i
      · intro i hi
        simp only [List.mem_cons, not_or] at hi
        simp only [World.log, World.upd]
        rw [ht]
        simp only [connected, if_neg hi.1]
        exact l1.unseen i hi.2
      · simp [connected, World.log, World.upd, clientsIn, l1.clients]
      · simpa [connected, World.log, World.upd, callsIn] using l1.calls
    obtain ⟨w2, h3, h4⟩ := bind_ok (x := runApis srv _ _) (f := fun w => serve srv w c []) h2
    simp only [serve, Except.ok.injEq] at h4
    subst h4
    obtain ⟨g3, r3, l3, u3⟩ := sim_apis (ts := .reading c :: s.threads) (by
      intro pc hp
      rcases List.mem_cons.mp hp with rfl | hp
      · rfl
      · exact m.still pc hp) f1 l2 h3
    obtain ⟨k, hk⟩ := m.threads
    refine ⟨⟨g3, _⟩, r3, l3, ⟨k, hk.cons _⟩, fun i hi => u3 i ?_⟩
    by_cases hic : i = c
    · simp [connected, hic]
    · simp only [connected, if_neg hic]
      exact m.used i ((List.mem_cons.mp hi).resolve_left hic)
  | reject w w1 w' seen open' c limit e _ hc h1 h2 ih =>
    obtain ⟨s, m⟩ := ih
    unfold handleConnection at h2
    rw [h1] at h2
    obtain ⟨⟨net, e'⟩, _, h2⟩ := bind_ok (x := srv.sock.close w1.net c) h2
    simp only [pure, Except.pure, Except.ok.injEq] at h2
    subst h2
    have l1 := ((Quiet.withWriter h1).trans (Quiet.net w1 net)).like m.like
    generalize ({ w1 with net := net } : World ν υ) = w2 at l1
    obtain ⟨hu, hz⟩ := l1.unseen c hc
    refine ⟨s, m.reach, ?_, m.threads, m.used⟩
    refine ⟨l1.crashed, l1.shutdown, l1.ops, l1.rdy, l1.active, l1.limit, l1.tasks, l1.slots, l1.used, ?_, ?_, ?_, ?_, ?_⟩
    · intro i hi
      rw [count_log, if_neg (by rintro rfl; simp_all)]
      exact l1.closes i hi
    · intro i hi
      rw [count_log]
      by_cases hic : i = c
      · subst hic; rw [hz]; simp
      · rw [if_neg hic]; exact l1.rejected i hi
    · intro i hi
      simp only [List.mem_cons, not_or] at hi
      rw [count_log, if_neg hi.1]
      exact l1.unseen i hi.2
    · simpa [World.log, clientsIn] using l1.clients
    · simpa [World.log, callsIn] using l1.calls
  | receive w w' seen open' c i _ hc hi h2 ih =>
    obtain ⟨⟨g, ts⟩, m⟩ := ih
    obtain ⟨bs, v, rfl, hg, hfit⟩ := hi
    obtain ⟨msg, _, _, _, _, h5⟩ := serve_grammar_any (srv := srv) (c := c) hg hfit
    rw [h5] at h2
    obtain ⟨w1, h3, h2⟩ := bind_ok h2
    simp only [serve, Except.ok.injEq] at h2
    subst h2
    obtain ⟨pre, post, e, hs⟩ := m.reader hc
    simp only at e
    subst e
    obtain ⟨g', r, l, u⟩ := sim_message g.log.length m.reach m.like (m.used c hc) hs h3
    exact ⟨⟨g', _⟩, r, l, m.threads, fun i hi => u i (m.used i hi)⟩
  | gone w w' seen open' c i _ hc hi h2 ih =>
    obtain ⟨⟨g, ts⟩, m⟩ := ih
    have h3 : disconnect srv w c = .ok w' := by
      cases i with
      | failed b => exact h2
      | data bs => rwa [serve_malformed fun hf ⟨v, hv⟩ => hi ⟨bs, v, rfl, hv, hf⟩] at h2
    obtain ⟨pre, post, e, hs⟩ := m.reader hc
    simp only at e
    subst e
    obtain ⟨g', r, l, u⟩ := sim_disconnect m.reach m.like hs h3
    obtain ⟨k, hk⟩ := m.threads
    refine ⟨⟨g', _⟩, r, l, ⟨k, ?_⟩, fun i hi => u i (m.used i (List.mem_of_mem_erase hi))⟩
    have h4 : (PC.reading c :: (pre ++ post)).Perm (PC.reading c :: ((open'.erase c).map PC.reading ++ List.replicate k PC.waiting)) := by
      refine List.perm_middle.symm.trans (hk.trans ?_)
      rw [← List.cons_append]
      exact ((List.perm_cons_erase hc).map PC.reading).append_right _
    exact h4.cons_inv
  | api w w' seen open' a _ h2 ih =>
    obtain ⟨⟨g, ts⟩, m⟩ := ih
    obtain ⟨g', r, l, u⟩ := sim_api m.reach m.like m.still h2
    exact ⟨⟨g', _⟩, r, l, m.threads, fun i hi => u i (m.used i hi)⟩
  | shutdown w seen open' _ ih =>
    obtain ⟨⟨g, ts⟩, m⟩ := ih
    have f1 := ReachableIf.step _ .shutdown _ m.reach ⟨nofun, nofun⟩ (.shutdown g ts m.like.crashed)
    have l2 : Like seen { w with shutdown := true } ({ g with shutdown := true }.ev .stop) := by
      have : Like seen { w with shutdown := true } { g with shutdown := true } := { m.like with shutdown := rfl }
      exact this.logged _ rfl
    have f2 := go {} (pre := []) f1 m.like.crashed rfl nofun
      (show act g {} .stopping = some ({ g with shutdown := true }.ev .stop, [if g.currentOps < 1 then .stoppingTransport else .waiting]) from rfl)
    obtain ⟨k, hk⟩ := m.threads
    by_cases hz : g.currentOps < 1
    · rw [if_pos hz] at f2
      have f3 := go {} (pre := []) f2 l2.crashed rfl nofun (show act _ {} .stoppingTransport = some (_, []) from rfl)
      exact ⟨_, f3, l2.logged _ rfl, ⟨k, hk⟩, m.used⟩
    · rw [if_neg hz] at f2
      refine ⟨_, f2, l2, ⟨k + 1, ?_⟩, m.used⟩
      refine (hk.cons PC.waiting).trans ?_
      rw [List.replicate_succ]
      exact List.perm_middle.symm

end Webwire.Life
