import Verif.Proofs.MemchanNil

/-!
# C105: memchan sockets without a server, and the references of the others
-/

set_option autoImplicit false

namespace Webwire.Nil

open Spec

/-- Whatever is called, in whatever order, on sockets and transports of any number: no call dereferences nil, uses a socket that was
not made completely, or panics otherwise. The one exception is to make sockets of a transport that has no buffer size. -/
theorem C105_no_panic (h : Heap) (hr : Reachable h) (op : Op) (hv : Valid h op) :
    (∃ h' r, run h op = .ok (h', r)) ∨ (run h op = goPanic "empty buffer" ∧ NoBuffers h op) := by
  rcases run_ok (steps_inv hr inv_start) op hv with ⟨h', r, e, -⟩ | e
  · exact .inl ⟨h', r, e⟩
  · exact .inr e

/-- A client's socket without a server: it never is connected, dialing says that the server is unreachable, neither writing nor
reading begins, and closing it does nothing, whatever else has been called meanwhile, on it or on others. -/
theorem C105_alone (h h1 h2 : Heap) (hr : Reachable h) (r : Res) (e : run h (.newSocket none) = .ok (h1, r)) (hs : Steps h1 h2)
    (accept down : Bool) :
    let a := h.socks.length
    run h2 (.isConnected a) = .ok (h2, .connected false) ∧ run h2 (.dial a accept down) = .ok (h2, .unreachable) ∧
      run h2 (.begin a) = .ok (h2, .disconnected) ∧ run h2 (.close a) = .ok (h2, .ok) := by
  have i0 := steps_inv hr inv_start
  have i1 : Inv h1 := by cases e; exact inv_newSocketD i0
  have s1 : h1.socks[h.socks.length]? = some ⟨.client, none, none, some h.cells.length⟩ := by cases e; simp [newDisconnectedSocket]
  have s2 := steps_socks hs i1 s1
  obtain ⟨c, b, k1, k2, k3⟩ := (steps_inv hs i1).socks _ _ s2
  cases k1
  have hb : b = false := by
    rcases k3 with k3 | k3
    · obtain ⟨_, _, _, _, k, _⟩ := k3.ex
      cases k
    · exact k3.2.2.2
  subst hb
  simp [run, isConnected, dial, begin, close, deref, s2, k2, bind, Except.bind, pure, Except.pure]

/-- Sockets made as a pair are connected or not both at once, in every later state, and are each other's remote. -/
theorem C105_pair (h h1 h2 : Heap) (hr : Reachable h) (t : Nat) (r : Res) (hv : Valid h (.newPair t))
    (e : run h (.newPair t) = .ok (h1, r)) (hs : Steps h1 h2) :
    let srv := h.socks.length
    let clt := h.socks.length + 1
    (∃ b, run h2 (.isConnected srv) = .ok (h2, .connected b) ∧ run h2 (.isConnected clt) = .ok (h2, .connected b)) ∧
      run h2 (.remoteAddr srv) = .ok (h2, .address (some (some clt))) ∧ run h2 (.remoteAddr clt) = .ok (h2, .address (some (some srv))) := by
  have i0 := steps_inv hr inv_start
  have ht : h.trans[t]? = some h.trans[t] := List.getElem?_eq_getElem hv
  have hb : ¬ (h.trans[t]).bufferSize < 1 := by
    intro hb
    simp [run, newEntangledSockets, deref, ht, newSocket, hb, bind, Except.bind, goPanic] at e
  simp [run, pair_ok ht hb, bind, Except.bind, pure, Except.pure] at e
  have i1 : Inv h1 := e.1 ▸ inv_pair i0 ht hb
  have s1 := steps_socks hs i1 (a := h.socks.length) (by rw [← e.1]; simp [withPair]; rfl)
  have s2 := steps_socks hs i1 (a := h.socks.length + 1) (by rw [← e.1]; simp [withPair]; rfl)
  obtain ⟨c, b, k1, k2, -⟩ := (steps_inv hs i1).socks _ _ s1
  cases k1
  refine ⟨⟨b, ?_, ?_⟩, ?_, ?_⟩ <;>
    simp [run, isConnected, remoteAddr, deref, s1, s2, k2, bind, Except.bind, pure, Except.pure]

/-- Whether a socket is connected is changed by no call on a socket other than itself and its remote: only by dialing or closing one
of these two, or by shutting down a transport. -/
theorem C105_apart (h h' : Heap) (hr : Reachable h) (op : Op) (r : Res) (hv : Valid h op) (e : run h op = .ok (h', r)) (a : Nat)
    (s : Sock) (ha : h.socks[a]? = some s)
    (h1 : ∀ (b : Nat) (ac dn : Bool), op = .dial b ac dn ∨ op = .close b → b ≠ a ∧ s.remote ≠ some b) (h2 : ∀ t, op ≠ .shutdown t)
    (b : Bool) : run h (.isConnected a) = .ok (h, .connected b) ↔ run h' (.isConnected a) = .ok (h', .connected b) := by
  have i0 := steps_inv hr inv_start
  have s1 := run_socks i0 hv e ha
  obtain ⟨c, b', k1, k2, -⟩ := i0.socks _ _ ha
  have q := run_cells i0 hv e (c := c) (by grind) (fun b ac dn sb hb hs hc => by
    have := h1 b ac dn hb
    rcases i0.share a b s sb ha hs (k1.trans hc.symm) with rfl | k
    · exact this.1 rfl
    · exact this.2 k) h2
  rw [k2] at q
  simp [run, isConnected, deref, ha, s1, k1, k2, q, bind, Except.bind, pure, Except.pure]

/-- What socket.go:28-30 says of `RemoteAddr`: "returns the address of the remote client or nil if the client is not connected". -/
def C105_full : Prop :=
  ∀ (h : Heap), Reachable h → ∀ (a : Nat), Valid h (.remoteAddr a) → run h (.isConnected a) = .ok (h, .connected false) →
    run h (.remoteAddr a) = .ok (h, .address none)

/-- It is not so: a socket without a server, that never was connected, has a remote address. -/
theorem C105_violated : ¬ C105_full := by
  intro hf
  have := hf ⟨[⟨.client, none, none, some 0⟩], [false], []⟩ (.step _ _ (.newSocket none) .ok .refl trivial rfl) 0 Nat.zero_lt_one rfl
  simp [run, remoteAddr, deref, bind, Except.bind, pure, Except.pure] at this

/-- So much of it holds: connected sockets do have the address of their remote socket. Missing: that other sockets have none,
which is false. -/
theorem C105_address_partial (h : Heap) (hr : Reachable h) (a : Nat) (hv : Valid h (.remoteAddr a))
    (hc : run h (.isConnected a) = .ok (h, .connected true)) :
    ∃ b, b ≠ a ∧ run h (.remoteAddr a) = .ok (h, .address (some (some b))) ∧ run h (.remoteAddr b) = .ok (h, .address (some (some a))) ∧
      run h (.isConnected b) = .ok (h, .connected true) := by
  have hs : h.socks[a]? = some h.socks[a] := List.getElem?_eq_getElem hv
  generalize h.socks[a] = s at hs
  obtain ⟨c, b, k1, k2, k3⟩ := (steps_inv hr inv_start).socks _ _ hs
  simp [run, isConnected, deref, hs, k1, k2, bind, Except.bind, pure, Except.pure] at hc
  subst hc
  rcases k3 with k3 | k3
  · obtain ⟨r, t, s', tr, q1, q2, q3, q4, q5, q6, q7, q8, q9⟩ := k3.ex
    refine ⟨r, ?_, ?_, ?_, ?_⟩
    · rintro rfl
      rw [hs] at q3
      cases q3
      rcases q9 with ⟨u, v⟩ | ⟨u, v⟩ <;> rw [u] at v <;> cases v
    all_goals
      rcases q9 with ⟨u, v⟩ | ⟨u, v⟩ <;>
        simp [run, isConnected, remoteAddr, deref, hs, q1, q3, q6, q8, k1, k2, u, v, bind, Except.bind, pure, Except.pure]
  · simp at k3

/-! ### Not vacuous -/

/-- A transport, initialised; a pair of its sockets, the client's side of which is dialed; a client's socket without server. -/
def demo : Heap :=
  { socks := [⟨.server, some 0, some 1, some 0⟩, ⟨.client, some 0, some 0, some 0⟩, ⟨.client, none, none, some 1⟩]
    cells := [true, false]
    trans := [⟨64, true, true, [0]⟩] }

/-- It is reached. -/
theorem demo_reachable : Reachable demo := by
  refine .step { demo with socks := demo.socks.take 2, cells := [true] } _ (.newSocket none) .ok ?_ trivial rfl
  refine .step { demo with socks := demo.socks.take 2, cells := [false], trans := [⟨64, true, true, []⟩] } _ (.dial 1 true false) .ok ?_
    Nat.one_lt_two rfl
  refine .step { socks := [], cells := [], trans := [⟨64, true, true, []⟩] } _ (.newPair 0) .ok ?_ Nat.zero_lt_one rfl
  refine .step { socks := [], cells := [], trans := [{}] } _ (.init 0 64) .ok ?_ Nat.zero_lt_one rfl
  exact .step {} _ .newTransport .ok .refl trivial rfl

/-- The pair is connected, shutting down closes it, and neither then nor before is the other socket. -/
example :
    run demo (.isConnected 0) = .ok (demo, .connected true) ∧ run demo (.isConnected 2) = .ok (demo, .connected false) ∧
      run demo (.remoteAddr 1) = .ok (demo, .address (some (some 0))) ∧
      run demo (.shutdown 0) = .ok ({ demo with cells := [false, false], trans := [⟨64, true, false, []⟩] }, .ok) ∧
      run demo (.close 0) = .ok ({ demo with cells := [false, false], trans := [⟨64, true, true, []⟩] }, .ok) := by
  refine ⟨rfl, rfl, rfl, rfl, rfl⟩

/-- `C105_alone`'s socket, later. -/
example : run demo (.dial 2 true false) = .ok (demo, .unreachable) :=
  (C105_alone _ _ demo (.step { socks := [], cells := [], trans := [⟨64, true, true, []⟩] } _ (.newPair 0) .ok
    (.step { socks := [], cells := [], trans := [{}] } _ (.init 0 64) .ok (.step {} _ .newTransport .ok .refl trivial rfl)
      Nat.zero_lt_one rfl) Nat.zero_lt_one rfl) .ok rfl
    (.step _ _ (.dial 1 true false) .ok .refl (show 1 < 3 by omega) rfl) true false).2.1

/-- A transport that was not initialised: no sockets of it. -/
example : run { trans := [{}] } (.newSocket (some 0)) = goPanic "empty buffer" ∧ NoBuffers { trans := [{}] } (.newSocket (some 0)) :=
  ⟨rfl, _, rfl, rfl⟩

end Webwire.Nil
