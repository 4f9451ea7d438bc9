import Mathlib.Logic.Relation
import Verif.Props.Seriatim

/-!
# C29: refusals, and what is lost by them

A reader that waits for slots of refused requests waits for ever. When refusing a request stops a server that does one
thing after the other (`Model/Server`), and that it then stops in `Model/Lifecycle` as well.
-/

set_option autoImplicit false

namespace Webwire.Life
open _root_.Webwire.Spec

private theorem Acts.refusals {g g' : G} {ch : Choice} {pc : PC} {pcs : List PC} (h : Acts g ch pc g' pcs) (c : ConnId) :
    g.log.countP (LEv.isRefused c) ≤ g'.log.countP (LEv.isRefused c) := by
  cases h <;> simp [G.ev, G.upd, G.crash, unlinked, LEv.isRefused, List.countP_append]

/-- C29: once as many requests of a connection were refused as it has slots, a request that arrives waits for ever,
whatever happens afterwards. The connection can still be closed, but `OnClientDisconnected` is never called for it. -/
theorem C29_waits_for_ever (s : State) (h : Reachable s) (c : ConnId) (m : LMsg) (hl : (s.g.conns c).limit > 1)
    (hn : (s.g.conns c).limit ≤ s.g.log.countP (LEv.isRefused c)) (hm : .acquiring c m ∈ s.threads)
    (s' : State) (hs : Relation.ReflTransGen (fun a b => ∃ l, Step a l b) s s') :
    .acquiring c m ∈ s'.threads ∧ (∀ ch, act s'.g ch (.acquiring c m) = none) ∧ .disconnected c ∉ s'.g.log := by
  have key : Reachable s' ∧ (s'.g.conns c).limit = (s.g.conns c).limit ∧
      (s.g.conns c).limit ≤ s'.g.log.countP (LEv.isRefused c) ∧ .acquiring c m ∈ s'.threads := by
    induction hs with
    | refl => exact ⟨h, rfl, hn, hm⟩
    | @tail a b _ hb ih =>
      obtain ⟨hr, h1, h2, h3⟩ := ih
      obtain ⟨l, hb⟩ := hb
      refine ⟨.step _ _ _ hr trivial hb, ?_⟩
      have hsl := hr.inv.slots c (by rw [h1]; exact hl)
      have hu : (a.g.conns c).used = true := by
        by_contra hu
        have h4 := (hr.inv.unused c (by simpa using hu)).2
        rw [List.countP_eq_zero] at h4
        simpa [PC.isOn] using h4 _ h3
      cases hb with
      | thread g g' pre post pcs pc ch hc hact =>
        have ha := acts_of_act hact
        simp only at h1 h2 h3 hsl ⊢
        refine ⟨by rw [(ha.static c).2, h1], ?_, ?_⟩
        · have := Acts.refusals ha c
          omega
        · have hne : pc ≠ .acquiring c m := by
            rintro rfl
            simp only [act, actAcquiring] at hact
            rw [if_pos (by rw [h1]; exact hl), if_pos (by rw [h1]; omega)] at hact
            cases hact
          simp only [List.mem_append, List.mem_cons] at h3 ⊢
          rcases h3 with h3 | h3 | h3
          · exact .inl h3
          · exact absurd h3.symm hne
          · exact .inr (.inr h3)
      | connect g ts c' limit hc hu' =>
        have hne : c ≠ c' := by
          rintro rfl
          simp only [hu'] at hu
          cases hu
        exact ⟨by simpa [hne] using h1, h2, List.mem_cons_of_mem _ h3⟩
      | close g ts c' hc hu' => exact ⟨h1, h2, List.mem_cons_of_mem _ h3⟩
      | shutdown g ts hc => exact ⟨h1, h2, List.mem_cons_of_mem _ h3⟩
  obtain ⟨hr, h1, h2, h3⟩ := key
  have hsl := hr.inv.slots c (by rw [h1]; exact hl)
  refine ⟨h3, fun ch => ?_, fun hd => ?_⟩
  · simp only [act, actAcquiring]
    rw [if_pos (by rw [h1]; exact hl), if_pos (by rw [h1]; omega)]
  · have h4 := hr.endInv.ends c
    have h5 := List.count_pos_iff.mpr hd
    have h6 : 0 < s'.threads.countP (PC.isReader c) := List.countP_pos_iff.mpr ⟨_, h3, by simp [PC.isReader]⟩
    split at h4 <;> omega

/-- C29, non-vacuity: two requests were refused on a connection with limit 2, a third one waits. -/
example : ∃ s, play anyStep {} (exExhausted ++ [recv 0 (exReq 3), .go 0]) = some s ∧ (s.g.conns 1).limit = 2 ∧
    s.g.log.countP (LEv.isRefused 1) = 2 ∧ s.threads = [.acquiring 1 (exReq 3)] := ⟨_, rfl, rfl, rfl, rfl⟩

variable {ν υ : Type} {srv : Server ν υ} {w : World ν υ} {seen open' : List ConnId}

/-- The reader of `c` has received a request. -/
private theorem received (h : Seriatim srv w seen open') {c : ConnId} (hc : c ∈ open') {m : Msg}
    (hq : m.requiresReply = true) :
    ∃ g pre post, ReachableIf Tidy ⟨g, pre ++ .checking c ⟨kindOf m, 0⟩ :: post⟩ ∧ Like seen w g ∧
      ∀ pc ∈ pre ++ post, pc = .waiting ∨ ∃ c', pc = .reading c' := by
  obtain ⟨s, hm⟩ := mirrors h
  obtain ⟨pre, post, e, _⟩ := hm.reader hc
  have hr : ReachableIf Tidy ⟨s.g, pre ++ .reading c :: post⟩ := by rw [← e]; exact hm.reach
  have hk : kindOf m ≠ .heartbeat := by
    intro hk
    have := kindOf_requiresReply m 0
    rw [hq, hk] at this
    cases this
  refine ⟨_, _, _, go { msg := some ⟨kindOf m, 0⟩ } hr hm.like.crashed rfl nofun
    (g' := s.g.ev (.arrived c ⟨kindOf m, 0⟩)) (pcs := [.checking c ⟨kindOf m, 0⟩]) (by simp [act, actReading, hk]),
    hm.like.logged _ rfl, ?_⟩
  intro pc hp
  obtain ⟨k, hk⟩ := hm.threads
  have : pc ∈ s.threads := by
    rw [e]
    simp only [List.mem_append, List.mem_cons] at hp ⊢
    exact hp.elim .inl fun hp => .inr (.inr hp)
  rw [hk.mem_iff] at this
  simp only [List.mem_append, List.mem_map, List.mem_replicate] at this
  rcases this with ⟨c', _, rfl⟩ | ⟨_, rfl⟩
  · exact .inr ⟨c', rfl⟩
  · exact .inl rfl

/-- C29: what comes of a request that arrives while a server that does one thing after the other is shutting down. If all
handler slots of the connection are taken it waits; otherwise, if there is no writer, the server panics; otherwise it
goes on. What stops it does so in `Model/Lifecycle`, too: there is an execution after which the reader waits for ever,
or one that ends in the same panic. -/
theorem C29_sequential (hb : WellBehaved srv) (h : Seriatim srv w seen open') (c : ConnId) (hc : c ∈ open')
    (hsd : w.shutdown = true) (ha : (w.conns c).isActive = true) (bs : Bytes) (v : View) (hg : Grammar bs v)
    (hfit : bs.length ≤ srv.bufferSize.toNat) (hq : asksReply v.msgType) :
    ((w.conns c).limit > 1 ∧ ((w.conns c).slots : Int) ≥ (w.conns c).limit →
      serve srv w c [.data bs] = goBlock "no free handler slot" ∧
      ∃ s m, Reachable s ∧ s.g.crashed = none ∧
        ∀ s', Relation.ReflTransGen (fun a b => ∃ l, Step a l b) s s' →
          .acquiring c m ∈ s'.threads ∧ (∀ ch, act s'.g ch (.acquiring c m) = none) ∧ .disconnected c ∉ s'.g.log) ∧
    (¬ ((w.conns c).limit > 1 ∧ ((w.conns c).slots : Int) ≥ (w.conns c).limit) →
      (∀ net e, srv.sock.getWriter w.net c = .ok (net, some e) →
        serve srv w c [.data bs] = goPanic "nil pointer dereference" ∧
        ∃ s, Reachable s ∧ s.g.crashed = some "nil pointer dereference") ∧
      (∀ net, srv.sock.getWriter w.net c = .ok (net, none) → ∃ w', serve srv w c [.data bs] = .ok w')) := by
  obtain ⟨m, h1, _, _, _, h2⟩ := serve_grammar (srv := srv) (w := w) (c := c) (rest := []) hg hfit
  have ht : m.msgType = v.msgType := by rw [← h1]; rfl
  rw [← ht] at hq
  have hr : m.requiresReply = true := by
    simp only [asksReply, List.mem_cons, List.not_mem_nil, or_false] at hq
    simp only [Msg.requiresReply, MsgRequestCloseSession, MsgRequestRestoreSession, MsgRequestBinary, MsgRequestUtf8,
      MsgRequestUtf16, Bool.or_eq_true, beq_iff_eq]
    tauto
  have hnh : m.msgType ≠ MsgHeartbeat := by
    intro e; rw [e] at hq; revert hq; decide
  obtain ⟨g, pre, post, hreach, hlike, hrest⟩ := received h hc hr
  refine ⟨fun hfull => ⟨?_, ?_⟩, fun hfree => ⟨fun net e hw => ⟨?_, ?_⟩, fun net hw => ?_⟩⟩
  · rw [h2]
    unfold handleMessage registerHandler
    simp [hnh, ha, hfull, bind, Except.bind, goBlock]
  · have f1 := go {} hreach hlike.crashed rfl nofun (g' := g) (pcs := [.acquiring c ⟨kindOf m, 0⟩])
      (by simp [act, actChecking, hlike.active, ha])
    have hr1 : Reachable _ := f1.mono fun _ _ _ => trivial
    have hl : (g.conns c).limit > 1 := by rw [hlike.limit]; exact hfull.1
    have hsl := hr1.inv.slots c hl
    have hz : (pre ++ ([PC.acquiring c ⟨kindOf m, 0⟩] ++ post)).countP (PC.holdsSlot c) = 0 := by
      rw [List.countP_eq_zero]
      intro pc hp
      simp only [List.mem_append, List.mem_cons, List.not_mem_nil, or_false] at hp hrest
      have : pc = .acquiring c ⟨kindOf m, 0⟩ ∨ pc = .waiting ∨ ∃ c', pc = .reading c' := by
        rcases hp with hp | hp | hp
        · exact .inr (hrest pc (.inl hp))
        · exact .inl hp
        · exact .inr (hrest pc (.inr hp))
      rcases this with rfl | rfl | ⟨c', rfl⟩ <;> simp [PC.holdsSlot]
    refine ⟨_, _, hr1, hlike.crashed, fun s' hs => C29_waits_for_ever _ hr1 c ⟨kindOf m, 0⟩ hl ?_ (by simp) s' hs⟩
    have h3 := hfull.2
    rw [← hlike.slots, ← hlike.limit] at h3
    simp only at hsl ⊢
    rw [hz] at hsl
    omega
  · rw [h2]
    unfold handleMessage registerHandler failMsgShutdown
    simp [hnh, ha, hfree, hsd, hr, hw, World.upd, bind, Except.bind, goPanic]
  · obtain ⟨g1, hr1, hl1, _⟩ := sim_acquire hreach hlike ha hfree
    have f2 := go {} hr1 hl1.crashed rfl nofun (g' := g1) (pcs := [.refusing c ⟨kindOf m, 0⟩])
      (by simp [act, actCounting, hl1.shutdown, slotTaken, World.upd, hsd, kindOf_requiresReply, hr])
    have hr2 : Reachable ⟨g1, pre ++ .refusing c ⟨kindOf m, 0⟩ :: post⟩ := f2.mono fun _ _ _ => trivial
    exact ⟨_, .step _ _ _ hr2 trivial (.thread g1 (g1.crash "nil pointer dereference") pre post
      [.refusing c ⟨kindOf m, 0⟩] (.refusing c ⟨kindOf m, 0⟩) { writerOk := false } hl1.crashed rfl), rfl⟩
  · rw [h2]
    obtain ⟨⟨net', e⟩, hs⟩ := call_returns (hb.writer c) net (.special MsgReplyShutdown m.identifierBytes)
      (by simp [WriterCall.Panics])
    simp only [WriterCall.run] at hs
    unfold handleMessage registerHandler failMsgShutdown
    simp [hnh, ha, hfree, hsd, hr, hw, hs, World.upd, bind, Except.bind, pure, Except.pure]
    exact ⟨_, rfl⟩

/-- C29, non-vacuity: after two refusals the slots of a connection with limit 2 are taken; on a second one there are some
left. -/
example : ∃ w, Seriatim (sessServer 1) w [2, 1] [2, 1] ∧ w.shutdown = true ∧ (w.conns 1).isActive = true ∧
    (w.conns 1).limit = 2 ∧ (w.conns 1).slots = 2 ∧ (w.conns 2).isActive = true ∧ (w.conns 2).slots = 0 ∧
    (∃ net, (sessServer 1).sock.getWriter w.net 2 = .ok (net, none)) ∧
    Understood (sessServer 1) (.data [127, 1,2,3,4,5,6,7,8, 1, 97]) := by
  obtain ⟨c1, w1, c2, w2, w3, w4, a1, h1, a2, h2, h3, h4, h5, h6, h7, h8, h9, h10, h11⟩ :
      ∃ c1 w1 c2 w2 w3 w4, writeConfMessage (sessServer 1) sessStart 1 = .ok (c1, none) ∧
      handleConnection (sessServer 1) sessStart 1 2 [] = .ok w1 ∧
      writeConfMessage (sessServer 1) w1 2 = .ok (c2, none) ∧
      handleConnection (sessServer 1) w1 2 3 [] = .ok w2 ∧
      serve (sessServer 1) { w2 with shutdown := true } 1 [.data [127, 1,2,3,4,5,6,7,8, 1, 97]] = .ok w3 ∧
      serve (sessServer 1) w3 1 [.data [127, 1,2,3,4,5,6,7,8, 1, 97]] = .ok w4 ∧
      w4.shutdown = true ∧ (w4.conns 1).isActive = true ∧ (w4.conns 1).limit = 2 ∧ (w4.conns 1).slots = 2 ∧
      (w4.conns 2).isActive = true ∧ (w4.conns 2).slots = 0 ∧
      (∃ net, (sessServer 1).sock.getWriter w4.net 2 = .ok (net, none)) :=
    ⟨_, _, _, _, _, _, by rfl, by rfl, by rfl, by rfl, by rfl, by rfl, by rfl, by rfl, by rfl, by rfl, by rfl, by rfl,
      _, by rfl⟩
  have hg : Understood (sessServer 1) (.data [127, 1,2,3,4,5,6,7,8, 1, 97]) :=
    ⟨_, _, rfl, Grammar.request 127 1 [1,2,3,4,5,6,7,8] [97] [] (by simp) rfl rfl (by simp), by decide⟩
  have s0 : Seriatim (sessServer 1) sessStart [] [] := .start _ ⟨rfl, fun _ => rfl, rfl⟩ rfl rfl rfl
  have s1 := Seriatim.accept _ _ _ _ _ 1 2 s0 (by simp) a1 h1
  have s2 := Seriatim.accept _ _ _ _ _ 2 3 s1 (by simp) a2 h2
  have s3 := Seriatim.receive _ _ _ _ 1 _ (.shutdown _ _ _ s2) (by simp) hg h3
  exact ⟨_, .receive _ _ _ _ 1 _ s3 (by simp) hg h4, h5, h6, h7, h8, h9, h10, h11, hg⟩

end Webwire.Life
