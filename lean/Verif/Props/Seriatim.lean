import Verif.Props.Lifecycle5
import Verif.Props.Lifecycle10
import Verif.Props.Lifecycle4
import Verif.Props.Session
import Verif.Props.Reply
import Verif.Proofs.Seriatim

/-!
# C30, C59: one thing after the other

The sequential model of the server (`Model/Server`) is contained in the concurrent one (`Model/Lifecycle`), and without
interleavings C30 holds in full. Such a server is always ready for more (C59).
-/

set_option autoImplicit false

namespace Webwire.Life
open _root_.Webwire.Spec

variable {ν υ : Type} {srv : Server ν υ} {w : World ν υ} {seen open' : List ConnId}

/-- C30: whatever a server does one thing after the other (`Model/Server`) is an execution of `Model/Lifecycle`, one in
which `Close` does not come between check and registration of a message. Nobody panics in it; at its end only the
readers of the open connections and calls of `Shutdown` are left, and connections, counters and flags are the same, as
are the calls of the user's code and the number of times each socket was closed. -/
theorem C30_embeds (h : Seriatim srv w seen open') :
    ∃ s, ReachableIf (fun s l => Life.Spec.NoCloseRace s l ∧ Life.Spec.WritersOk s l) s ∧ s.g.crashed = none ∧
      (∃ k, s.threads.Perm (open'.map PC.reading ++ List.replicate k PC.waiting)) ∧
      s.g.shutdown = w.shutdown ∧ s.g.currentOps = w.currentOps ∧ s.g.rdyClosed = w.rdyClosed ∧
      (∀ c, (s.g.conns c).active = (w.conns c).isActive ∧ (s.g.conns c).limit = (w.conns c).limit ∧
        (s.g.conns c).tasks = (w.conns c).tasks ∧ (s.g.conns c).slots = (w.conns c).slots) ∧
      s.g.connections = clientsIn w.trace ∧
      (∀ c ∈ clientsIn w.trace, (s.g.conns c).sockCloses = w.trace.count (.sockClose c)) ∧
      callsOf s.g.log = callsIn w.trace := by
  obtain ⟨s, m⟩ := mirrors h
  refine ⟨s, m.reach, m.like.crashed, m.threads, m.like.shutdown, m.like.ops, m.like.rdy,
    fun c => ⟨m.like.active c, m.like.limit c, m.like.tasks c, m.like.slots c⟩, m.like.clients, fun c hc => ?_, m.like.calls⟩
  rw [← m.like.clients] at hc
  exact m.like.closes c (((C90_list s m.reach).2 c).mp hc)

theorem count_disconnected (l : List LEv) (c : ConnId) : (callsOf l).count (.disconnected c) = l.count (.disconnected c) := by
  induction l with
  | nil => rfl
  | cons e l ih =>
    unfold callsOf at ih ⊢
    cases e with
    | start c' m =>
      rw [List.filterMap_cons]
      cases hk : m.kind <;> simp [hk, ih]
    | disconnected c' => simp [List.count_cons, ih]
    | _ => simp [ih]

/-- C30: done one after the other, the socket of a connection that was accepted is closed once, as soon as it is not
active any more and not before; no task stays behind; `OnClientDisconnected` is called at most once, for a connection
that was accepted and is not active. -/
theorem C30_sequential (h : Seriatim srv w seen open') (c : ConnId) :
    (w.conns c).tasks = 0 ∧ w.trace.count (.sockClose c) ≤ 1 ∧
    (c ∈ clientsIn w.trace → w.trace.count (.sockClose c) = if (w.conns c).isActive then 0 else 1) ∧
    (callsIn w.trace).count (.disconnected c) ≤ 1 ∧
    (.disconnected c ∈ callsIn w.trace → c ∈ clientsIn w.trace ∧ (w.conns c).isActive = false) := by
  obtain ⟨s, m⟩ := mirrors h
  have hr : Reachable s := m.reach.mono fun _ _ _ => trivial
  have hn : ReachableIf Life.Spec.NoCloseRace s := m.reach.mono fun _ _ h => h.1
  obtain ⟨k, hk⟩ := m.threads
  have hz : ∀ p : PC → Bool, (∀ c, p (.reading c) = false) → p .waiting = false → s.threads.countP p = 0 := by
    intro p h1 h2
    rw [List.countP_eq_zero]
    intro pc hp
    rw [hk.mem_iff] at hp
    simp only [List.mem_append, List.mem_map, List.mem_replicate] at hp
    rcases hp with ⟨c, _, rfl⟩ | ⟨_, rfl⟩ <;> simp [h1, h2]
  have ht : (s.g.conns c).tasks = 0 := by
    rw [C30_tasks s hr c, hz (PC.holdsTask c) (fun _ => rfl) rfl]
    rfl
  have hc : (s.g.conns c).used = true → (s.g.conns c).sockCloses = if (s.g.conns c).active then 0 else 1 := by
    intro hu
    have h1 := hn.closeInv.unlinks c
    rw [hz (PC.unlinks c) (fun _ => rfl) rfl] at h1
    cases ha : (s.g.conns c).active <;> simp_all
  refine ⟨by rw [← m.like.tasks c]; exact ht, ?_, fun hm => ?_, ?_, fun hd => ?_⟩
  · cases hu : (s.g.conns c).used with
    | true =>
      rw [← m.like.closes c hu, hc hu]
      split <;> omega
    | false => exact m.like.rejected c hu
  · rw [← m.like.clients] at hm
    have hu := ((C90_list s m.reach).2 c).mp hm
    rw [← m.like.closes c hu, hc hu, m.like.active]
  · rw [← m.like.calls, count_disconnected]
    exact (C66_once s hr c).1
  · have hd : LEv.disconnected c ∈ s.g.log := by
      rw [← m.like.calls, ← List.count_pos_iff, count_disconnected, List.count_pos_iff] at hd
      exact hd
    refine ⟨?_, ?_⟩
    · rw [← m.like.clients]
      exact ((C90_list s m.reach).2 c).mpr ((C66_once s hr c).2 hd)
    · rw [← m.like.active]
      exact C106_disconnected s hr c (.inr hd)

/-- C59: a server that did one thing after the other and was not shut down has handler slots free on every connection, no
operation is pending ... -/
theorem C59_always_ready (h : Seriatim srv w seen open') (hs : w.shutdown = false) (c : ConnId) :
    Ready w c ∧ (w.conns c).tasks = 0 ∧ ((w.conns c).limit > 1 → (w.conns c).slots = 0) := by
  obtain ⟨s, m⟩ := mirrors h
  have hr : Reachable s := m.reach.mono fun _ _ _ => trivial
  obtain ⟨k, hk⟩ := m.threads
  have hz : (w.conns c).limit > 1 → (w.conns c).slots = 0 := by
    intro hl
    rw [← m.like.limit] at hl
    rw [← m.like.slots, hr.inv.slots c hl]
    have h1 : s.threads.countP (PC.holdsSlot c) = 0 := by
      rw [List.countP_eq_zero]
      intro pc hp
      rw [hk.mem_iff] at hp
      simp only [List.mem_append, List.mem_map, List.mem_replicate] at hp
      rcases hp with ⟨c, _, rfl⟩ | ⟨_, rfl⟩ <;> simp [PC.holdsSlot]
    have h2 : s.g.log.countP (LEv.isRefused c) = 0 := by
      rw [List.countP_eq_zero]
      intro e he hc
      cases e with
      | refused c' m' =>
        have h3 := hr.accInv.stop (C28_only_requests_refused s hr c' m' he).2
        rw [m.like.shutdown, hs] at h3
        cases h3
      | _ => simp [LEv.isRefused] at hc
    omega
  exact ⟨⟨hs, fun hl => by rw [hz hl]; omega⟩, (C30_sequential h c).1, hz⟩

/-- ... and with sockets and user code that return it can go on, whatever comes next: a new connection, any bytes or error on
an open one, an API call. -/
theorem C59_goes_on (hb : WellBehaved srv) (h : Seriatim srv w seen open') (hs : w.shutdown = false) :
    (∀ c ∈ open', ∀ i, ∃ w' o, serve srv w c [i] = .ok w' ∧ Seriatim srv w' seen o) ∧
    (∀ a, ∃ w', runApi srv w a = .ok w' ∧ Seriatim srv w' seen open') ∧
    (∀ c limit, c ∉ seen → ∃ w' o, handleConnection srv w c limit [] = .ok w' ∧ Seriatim srv w' (c :: seen) o) := by
  refine ⟨fun c hc i => ?_, fun a => ?_, fun c limit hc => ?_⟩
  · obtain ⟨w', hw⟩ := C59_no_input_stops_the_server srv hb w c (C59_always_ready h hs c).1 [i]
    by_cases hi : Understood srv i
    · exact ⟨w', _, hw, .receive _ _ _ _ c i h hc hi hw⟩
    · exact ⟨w', _, hw, .gone _ _ _ _ c i h hc hi hw⟩
  · obtain ⟨w', hw⟩ := runApi_returns hb w a
    exact ⟨w', hw, .api _ _ _ _ a h hw⟩
  · obtain ⟨⟨w1, e⟩, h1⟩ : ∃ r, writeConfMessage srv w c = .ok r := by
      unfold writeConfMessage withWriter
      obtain ⟨⟨net, e⟩, hg⟩ := hb.getWriter w.net c
      rw [hg]
      cases e with
      | some e => exact ⟨_, rfl⟩
      | none =>
        obtain ⟨⟨net1, e1⟩, hw1⟩ := (hb.writer c).1 net srv.configMsg
        simp only [bind, Except.bind, writePart, hw1]
        cases e1 with
        | none =>
          obtain ⟨⟨net2, e2⟩, hw2⟩ := (hb.writer c).2 net1
          simp only [hw2]
          exact ⟨_, rfl⟩
        | some e1 =>
          obtain ⟨⟨net2, e2⟩, hw2⟩ := closeWith_returns (hb.writer c) net1 e1
          simp only [hw2]
          exact ⟨_, rfl⟩
    cases e with
    | some e =>
      obtain ⟨⟨net, e'⟩, h2⟩ := hb.close w1.net c
      have hw : handleConnection srv w c limit [] = .ok ({ w1 with net := net }.log (.sockClose c)) := by
        unfold handleConnection
        simp only [bind, Except.bind, h1, h2]
        rfl
      exact ⟨_, _, hw, .reject _ _ _ _ _ c limit e h hc h1 hw⟩
    | none =>
      obtain ⟨w2, h2⟩ := runApis_returns hb (srv.hooks.onClientConnected w1.user c).2
        { (w1.upd c fun _ => { limit := limit, isActive := true }).log (.onClientConnected c) with
          user := (srv.hooks.onClientConnected w1.user c).1 }
      have hw : handleConnection srv w c limit [] = .ok w2 := by
        unfold handleConnection
        simp only [bind, Except.bind, h1]
        exact (congrArg (fun x => Except.bind x fun w => serve srv w c []) h2 :)
      exact ⟨_, _, hw, .accept _ _ _ _ _ c limit h hc h1 hw⟩

/-- C30, C59, non-vacuity: two clients; one sends a signal, is closed by the server, sends another signal, which is
dropped, and disconnects. -/
example : ∃ w, Seriatim (sessServer 1) w [2, 1] [2] ∧ callsIn w.trace = [.signal 1, .disconnected 1] ∧
    w.trace.count (.sockClose 1) = 1 ∧ clientsIn w.trace = [1, 2] ∧ w.shutdown = true := by
  obtain ⟨c1, w1, c2, w2, w3, w4, w5, w6, a1, h1, a2, h2, h3, h4, h5, h6, h7⟩ :
      ∃ c1 w1 c2 w2 w3 w4 w5 w6, writeConfMessage (sessServer 1) sessStart 1 = .ok (c1, none) ∧
      handleConnection (sessServer 1) sessStart 1 0 [] = .ok w1 ∧
      writeConfMessage (sessServer 1) w1 2 = .ok (c2, none) ∧
      handleConnection (sessServer 1) w1 2 3 [] = .ok w2 ∧
      serve (sessServer 1) w2 1 [.data [64, 2, 97, 98, 99]] = .ok w3 ∧
      runApi (sessServer 1) w3 (.close 1) = .ok w4 ∧
      serve (sessServer 1) w4 1 [.data [64, 2, 97, 98, 99]] = .ok w5 ∧
      serve (sessServer 1) w5 1 [.failed true] = .ok w6 ∧
      callsIn w6.trace = [.signal 1, .disconnected 1] ∧ w6.trace.count (.sockClose 1) = 1 ∧ clientsIn w6.trace = [1, 2] :=
    ⟨_, _, _, _, _, _, _, _, by rfl, by rfl, by rfl, by rfl, by rfl, by rfl, by rfl, by rfl, by rfl, by rfl, by rfl⟩
  have hg : Understood (sessServer 1) (.data [64, 2, 97, 98, 99]) :=
    ⟨_, _, rfl, Grammar.signal 64 2 [97, 98] [99] (by simp) rfl (by simp), by decide⟩
  have s0 : Seriatim (sessServer 1) sessStart [] [] := .start _ ⟨rfl, fun _ => rfl, rfl⟩ rfl rfl rfl
  have s1 := Seriatim.accept _ _ _ _ _ 1 0 s0 (by simp) a1 h1
  have s2 := Seriatim.accept _ _ _ _ _ 2 3 s1 (by simp) a2 h2
  have s3 := Seriatim.receive _ _ _ _ 1 _ s2 (by simp) hg h3
  have s4 := Seriatim.api _ _ _ _ _ s3 h4
  have s5 := Seriatim.receive _ _ _ _ 1 _ s4 (by simp) hg h5
  have s6 := Seriatim.gone _ _ _ _ 1 _ s5 (by simp) (by rintro ⟨_, _, h, _⟩; cases h) h6
  exact ⟨_, .shutdown _ _ _ s6, h7.1, h7.2.1, h7.2.2, rfl⟩

/-- C59, non-vacuity: the server of this history is well-behaved and not shutting down before the last step. -/
example : WellBehaved (sessServer 1) ∧ ∃ w, Seriatim (sessServer 1) w [] [] ∧ w.shutdown = false := by
  refine ⟨⟨?_, ?_, ?_, ?_, ?_, ?_⟩, sessStart, .start _ ⟨rfl, fun _ => rfl, rfl⟩ rfl rfl rfl, rfl⟩
  · intro n c
    show ∃ r, (if n.connected c then _ else _) = _
    split_ifs <;> exact ⟨_, rfl⟩
  · intro c
    refine ⟨fun s b => ⟨_, rfl⟩, fun s => ?_⟩
    show ∃ r, (if s.pending c = [] then _ else _) = _
    split_ifs <;> exact ⟨_, rfl⟩
  · exact fun _ _ => ⟨_, rfl⟩
  · exact fun _ _ => ⟨_, rfl⟩
  · exact fun _ => by simp [sessServer, sessHooks]
  · exact fun _ _ _ => by simp [sessServer, sessHooks]

end Webwire.Life
