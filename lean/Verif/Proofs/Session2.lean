import Verif.Proofs.Session

/-!
Helper lemmas: what the single session operations do.
-/

set_option autoImplicit false

namespace Webwire
open Spec

variable {ν υ : Type} {srv : Server ν υ}

/-- Nothing that has to do with sessions changed. -/
structure Same (w w' : World ν υ) : Prop where
  registry : w'.registry = w.registry
  session : ∀ i, (w'.conns i).session = (w.conns i).session
  active : ∀ i, (w'.conns i).isActive = (w.conns i).isActive
  user : w'.user = w.user
  hooks : w'.trace.filter isSessionHook = w.trace.filter isSessionHook

theorem Same.refl (w : World ν υ) : Same w w := ⟨rfl, fun _ => rfl, fun _ => rfl, rfl, rfl⟩

theorem Same.trans {w w' w'' : World ν υ} (h : Same w w') (h' : Same w' w'') : Same w w'' :=
  ⟨h'.registry.trans h.registry, fun i => (h'.session i).trans (h.session i),
    fun i => (h'.active i).trans (h.active i), h'.user.trans h.user, h'.hooks.trans h.hooks⟩

theorem Same.holds {w w' : World ν υ} (h : Same w w') (c : ConnId) (k : Bytes) : Holds w' c k ↔ Holds w c k := by
  unfold Holds
  rw [h.session]

theorem Same.mk_net (w : World ν υ) (n : ν) : Same w { w with net := n } := ⟨rfl, fun _ => rfl, fun _ => rfl, rfl, rfl⟩

theorem Same.log (w : World ν υ) (e : Ev) (h : isSessionHook e = false) : Same w (w.log e) :=
  ⟨rfl, fun _ => rfl, fun _ => rfl, rfl, by simp [World.log, h]⟩

theorem Same.withWriter {w w' : World ν υ} {c : ConnId} {f} {e : Option Err}
    (h : withWriter srv w c f = .ok (w', e)) : Same w w' := by
  rcases withWriter_ok h with ⟨net, er, _, rfl, _⟩ | ⟨net, net', _, _, rfl⟩
  · exact Same.mk_net _ _
  · exact (Same.mk_net w net').trans (Same.log _ _ rfl)

theorem Same.fulfillMsg {w w' : World ν υ} {c : ConnId} {m : Msg} {enc : Encoding} {payload : Bytes}
    (h : fulfillMsg srv w c m enc payload = .ok w') : Same w w' := by
  obtain ⟨e, h⟩ := fulfillMsg_ok h
  exact Same.withWriter h

theorem Same.failMsg {w w' : World ν υ} {c : ConnId} {m : Msg} {re : ReplyErr}
    (h : failMsg srv w c m re = .ok w') : Same w w' := by
  rcases failMsg_ok h with ⟨_, rfl⟩ | ⟨_, ⟨e, code, text, _, h⟩ | ⟨_, _, _, _, rfl⟩ | ⟨_, _, _, h⟩⟩
  · exact Same.refl _
  · exact Same.withWriter h
  · exact Same.refl _
  · exact Same.withWriter h

theorem Same.conn (w : World ν υ) (c : ConnId) (f : Conn → Conn)
    (hf : ∀ x, (f x).session = x.session ∧ (f x).isActive = x.isActive) : Same w (w.upd c f) := by
  refine ⟨rfl, fun i => ?_, fun i => ?_, rfl, rfl⟩ <;>
  · simp only [World.upd]
    split_ifs with hi
    · subst hi; first | exact (hf _).1 | exact (hf _).2
    · rfl

theorem Same.registered (w : World ν υ) (c : ConnId) : Same w (registered w c) := by
  have h1 : Same w { (w.upd c fun con => { con with slots := if con.limit > 1 then con.slots + 1 else con.slots })
      with currentOps := if w.shutdown then w.currentOps else w.currentOps + 1 } :=
    (Same.conn w c (fun con => { con with slots := if con.limit > 1 then con.slots + 1 else con.slots })
      (fun _ => ⟨rfl, rfl⟩)).trans ⟨rfl, fun _ => rfl, fun _ => rfl, rfl, rfl⟩
  exact h1.trans (Same.conn _ c (fun con => { con with tasks := con.tasks + 1 }) (fun _ => ⟨rfl, rfl⟩))

theorem Same.deregisterHandler {w w' : World ν υ} {c : ConnId} (ha : (w.conns c).isActive = true)
    (h : deregisterHandler srv w c = .ok w') : Same w w' := by
  obtain ⟨_, w1, h1, _, rfl⟩ := deregisterHandler_ok h
  have h0 : Same w (opsDone w) := ⟨rfl, fun _ => rfl, fun _ => rfl, rfl, rfl⟩
  rcases deregisterTask_ok h1 with ⟨hn, _, _⟩ | ⟨_, rfl⟩
  · rw [show ((opsDone w).conns c).isActive = (w.conns c).isActive from rfl, ha] at hn; cases hn
  · exact h0.trans ((Same.conn _ c (fun con => { con with tasks := con.tasks - 1 }) (fun _ => ⟨rfl, rfl⟩)).trans
      (Same.conn _ c _ (fun _ => ⟨rfl, rfl⟩)))

theorem Same.release (w : World ν υ) : Same w (releaseMsg w) := Same.log _ _ rfl

/-- A session closure or restoration request on an open connection of a server that is not shutting down. -/
theorem handleMessage_session {w w' : World ν υ} {c : ConnId} {m : Msg} (ha : (w.conns c).isActive = true)
    (hsd : w.shutdown = false) (h : handleMessage srv w c m = .ok w') :
    (m.msgType = 32 → handleSessionRestore srv (registered w c) c m = .ok w') ∧
    (m.msgType = 31 → handleSessionClosure srv (registered w c) c m = .ok w') := by
  rcases handleMessage_ok h with ⟨hh, _⟩ | ⟨_, w1, b, hr, hb⟩
  · refine ⟨fun ht => ?_, fun ht => ?_⟩ <;> rw [ht] at hh <;> exact absurd hh (by decide)
  · rcases registerHandler_ok hr with ⟨h1, _⟩ | ⟨_, _, ⟨h1, _⟩ | ⟨_, rfl, rfl⟩⟩
    · rw [ha] at h1; cases h1
    · rw [hsd] at h1; cases h1
    · rcases hb with ⟨hb, _⟩ | ⟨hb, ⟨ht, h⟩ | ⟨ht, h⟩ | ⟨ht, h⟩ | ⟨ht, h⟩ | ⟨ht, _⟩⟩
      · cases hb
      · refine ⟨fun hx => ?_, fun hx => ?_⟩ <;> rw [hx] at ht <;> exact absurd ht (by decide)
      · refine ⟨fun hx => ?_, fun hx => ?_⟩ <;> rw [hx] at ht <;> exact absurd ht (by decide)
      · refine ⟨fun _ => h, fun hx => ?_⟩
        rw [hx] at ht; exact absurd ht (by decide)
      · refine ⟨fun hx => ?_, fun _ => h⟩
        rw [hx] at ht; exact absurd ht (by decide)
      · exact ⟨fun hx => absurd hx ht.2.2.1, fun hx => absurd hx ht.2.2.2⟩

/-! ## Agreement as a property of the registry -/

theorem Spec.Agrees.iff {w : World ν υ} (h : Agrees w) (k : Bytes) (c : ConnId) :
    (∃ set, w.registry.get k = some set ∧ c ∈ set) ↔ Holds w c k := by
  have := h.connections k []
  unfold sessionConnections at this
  cases hg : w.registry.get k with
  | none =>
    rw [hg] at this
    simp only at this
    constructor
    · rintro ⟨_, hx, _⟩; cases hx
    · intro hc; exact absurd hc (this c)
  | some set =>
    rw [hg] at this
    simp only at this
    constructor
    · rintro ⟨s, hx, hm⟩
      cases hx
      split_ifs at this with hp
      · exact (this.2.2 c).mp ((List.isPerm_iff.mp hp).mem_iff.mpr hm)
      · exact (this.2.2 c).mp hm
    · intro hc
      refine ⟨set, rfl, ?_⟩
      split_ifs at this with hp
      · exact (List.isPerm_iff.mp hp).mem_iff.mp ((this.2.2 c).mpr hc)
      · exact (this.2.2 c).mpr hc

theorem Spec.Agrees.set {w : World ν υ} (h : Agrees w) {k : Bytes} {set : List ConnId} (hg : w.registry.get k = some set) :
    set ≠ [] ∧ set.Nodup ∧ ∀ c, c ∈ set ↔ Holds w c k := by
  have h1 := h.connections k set
  unfold sessionConnections at h1
  rw [hg] at h1
  simp only at h1
  split_ifs at h1 <;> exact h1

theorem Spec.Agrees.none {w : World ν υ} (h : Agrees w) {k : Bytes} (hg : w.registry.get k = none) : ∀ c, ¬ Holds w c k := by
  intro c hc
  obtain ⟨set, hx, _⟩ := (h.iff k c).mpr hc
  rw [hg] at hx; cases hx

theorem closedKeys_append (l l' : List Ev) : closedKeys (l ++ l') = closedKeys l ++ closedKeys l' := by
  simp [closedKeys, List.filterMap_append]

theorem closedKeys_hooks (l : List Ev) : closedKeys l = closedKeys (l.filter isSessionHook) := by
  unfold closedKeys
  rw [List.filterMap_filter]
  congr 1
  funext e
  cases e <;> rfl

theorem Same.closed {w w' : World ν υ} (h : Same w w') : closedKeys w'.trace = closedKeys w.trace := by
  rw [closedKeys_hooks, h.hooks, ← closedKeys_hooks]

/-- One connection leaves its session, by an explicit closure. -/
theorem leave_closed {w w1 : World ν υ} {c : ConnId} {n : Int} {s : Session} (hag : Agrees w)
    (hs : (w.conns c).session = some s) (h : deregister srv w c true = .ok (w1, n)) :
    ((∃ c', c' ≠ c ∧ Holds w c' s.key) → closedKeys w1.trace = closedKeys w.trace) ∧
    ((∀ c', c' ≠ c → ¬ Holds w c' s.key) → closedKeys w1.trace = closedKeys w.trace ++ [s.key]) ∧
    (∀ i, (w1.conns i).session = (w.conns i).session) ∧
    w1.registry = (registryRemove w.registry s.key c).1 := by
  obtain ⟨set, hg, hm⟩ := (hag.iff s.key c).mpr ⟨s, hs, rfl⟩
  obtain ⟨_, hnd, hmem⟩ := hag.set hg
  have hrem : (registryRemove w.registry s.key c).2.2 = decide (set.length < 2) := by
    unfold registryRemove
    rw [hg]
    simp only
    split_ifs with hl <;> simp [hl]
  have hlast : set.length < 2 ↔ ∀ c', c' ≠ c → ¬ Holds w c' s.key := by
    constructor
    · intro hl c' hc' hh
      have h1 := (hmem c').mpr hh
      match set, hl, hm, h1 with
      | [a], _, hm, h1 =>
        simp only [List.mem_singleton] at hm h1
        exact hc' (h1.trans hm.symm)
      | [], _, hm, _ => simp at hm
      | _ :: _ :: _, hl, _, _ => simp at hl; omega
    · intro hh
      by_contra hl
      obtain ⟨c', hc'⟩ := List.exists_mem_of_ne_nil _ (setDelete_ne_nil (c := c) hnd hl)
      rw [mem_setDelete] at hc'
      exact hh c' hc'.2 ((hmem c').mp hc'.1)
  rcases deregister_ok h with ⟨hn, _⟩ | ⟨s', hs', _, ⟨hr, rfl⟩ | ⟨hr, _, _, rfl⟩⟩
  · rw [hs] at hn; cases hn
  · rw [hs] at hs'; cases hs'
    rw [hrem] at hr
    have hl : ¬ set.length < 2 := by
      rcases hr with hr | hr
      · simpa using hr
      · cases hr
    exact ⟨fun _ => rfl, fun hh => absurd (hlast.mpr hh) hl, fun _ => rfl, rfl⟩
  · rw [hs] at hs'; cases hs'
    rw [hrem] at hr
    have hl : set.length < 2 := by simpa using hr
    refine ⟨?_, ?_, fun _ => rfl, rfl⟩
    · rintro ⟨c', hc', hh⟩
      exact absurd hh (hlast.mp hl c' hc')
    · intro _
      simp [World.log, closedKeys_append]
      rfl

/-- Leaving a session does not touch the agreement. -/
theorem agrees_leave {w w1 : World ν υ} {n : Nat} {c : ConnId} {s : Session} (hok : RegOk n w.registry) (hag : Agrees w)
    (hs : (w.conns c).session = some s)
    (he : ∀ i, (w1.conns i).session = if i = c then none else (w.conns i).session)
    (hr : w1.registry = (registryRemove w.registry s.key c).1) : RegOk n w1.registry ∧ Agrees w1 := by
  have hsub : RegSub w.registry fun i => (w.conns i).session := by
    intro k set i hg hm
    exact (hag.iff k i).mp ⟨set, hg, hm⟩
  have hsup : RegSup w.registry fun i => (w.conns i).session := by
    intro i s hs
    exact (hag.iff s.key i).mpr ⟨s, hs, rfl⟩
  have e : (fun i => (w1.conns i).session) = fun i => if i = c then none else (w.conns i).session := funext he
  have h1 : RegOk n w1.registry := by rw [hr]; exact hok.remove _ _
  refine ⟨h1, agrees_of h1 ?_ ?_⟩
  · rw [e, hr]; exact hsub.remove hs
  · rw [e, hr]; exact hsup.remove hs

theorem Same.agrees {w w' : World ν υ} (h : Same w w') (hag : Agrees w) : Agrees w' := by
  refine ⟨fun k order => ?_, fun keys hn hk => ?_⟩
  · have := hag.connections k order
    unfold sessionConnections at this ⊢
    rw [h.registry]
    simp only [h.holds]
    exact this
  · have := hag.active keys hn (fun k => by rw [hk k]; simp only [h.holds])
    unfold activeSessionsNum at this ⊢
    rw [h.registry]; exact this

/-- `Connection.CloseSession` on a connection with a session. -/
theorem closeSession_leaves {w w' : World ν υ} {n : Nat} {c : ConnId} {s : Session} {e : Option Err}
    (hse : srv.sessionsEnabled = true) (hok : RegOk n w.registry) (hag : Agrees w) (hs : (w.conns c).session = some s)
    (h : closeSession srv w c = .ok (w', e)) :
    ((∃ c', c' ≠ c ∧ Holds w c' s.key) → closedKeys w'.trace = closedKeys w.trace) ∧
    ((∀ c', c' ≠ c → ¬ Holds w c' s.key) → closedKeys w'.trace = closedKeys w.trace ++ [s.key]) ∧
    (∀ i, (w'.conns i).session = if i = c then none else (w.conns i).session) ∧
    RegOk n w'.registry ∧ Agrees w' := by
  rcases closeSession_ok h with ⟨h1, _⟩ | ⟨_, h1, _⟩ | ⟨_, _, w1, n', hd, hw⟩
  · rw [hse] at h1; cases h1
  · rw [hs] at h1; cases h1
  · obtain ⟨a, b, c1, d⟩ := leave_closed hag hs hd
    have sm := Same.withWriter hw
    have es : ∀ i, ((setSession w1 c none).conns i).session = if i = c then none else (w.conns i).session := by
      intro i
      rw [← c1 i]
      simp only [setSession, World.upd]
      split_ifs <;> rfl
    have es' : ∀ i, (w'.conns i).session = if i = c then none else (w.conns i).session := by
      intro i; rw [sm.session, es]
    have et : closedKeys w'.trace = closedKeys w1.trace := sm.closed
    have := agrees_leave hok hag hs es' (by rw [sm.registry]; exact d)
    exact ⟨fun hx => by rw [et, a hx], fun hx => by rw [et, b hx], es', this.1, this.2⟩

/-- Closing the sessions of connections that all have the session `k`. -/
theorem closeSessions_all (hse : srv.sessionsEnabled = true) {n : Nat} {k : Bytes} {cs : List ConnId} :
    ∀ {w w' : World ν υ} {es : List (Option Err)}, RegOk n w.registry → Agrees w → cs.Nodup →
    (∀ c, c ∈ cs ↔ Holds w c k) → closeSessions srv w cs = .ok (w', es) →
    es.length = cs.length ∧ (∀ i, (w'.conns i).session = if i ∈ cs then none else (w.conns i).session) ∧
    closedKeys w'.trace = closedKeys w.trace ++ (if cs = [] then [] else [k]) ∧
    RegOk n w'.registry ∧ Agrees w' := by
  induction cs with
  | nil =>
    intro w w' es hok hag _ _ h
    obtain ⟨rfl, rfl⟩ := closeSessions_nil h
    exact ⟨rfl, by simp, by simp, hok, hag⟩
  | cons c cs ih =>
    intro w w' es hok hag hnd hall h
    obtain ⟨w1, e, es', h1, h2, rfl⟩ := closeSessions_cons h
    obtain ⟨s, hs, hk⟩ := (hall c).mp (by simp)
    obtain ⟨a, b, d, hok1, hag1⟩ := closeSession_leaves hse hok hag hs h1
    have hnc : c ∉ cs := (List.nodup_cons.mp hnd).1
    have hall1 : ∀ i, i ∈ cs ↔ Holds w1 i k := by
      intro i
      unfold Holds
      rw [d i]
      by_cases hi : i = c
      · subst hi
        simp [hnc]
      · rw [if_neg hi]
        have := hall i
        unfold Holds at this
        rw [← this]
        simp [hi]
    obtain ⟨p, q, r, t⟩ := ih hok1 hag1 (List.nodup_cons.mp hnd).2 hall1 h2
    refine ⟨by simp [p], fun i => ?_, ?_, t⟩
    · rw [q i, d i]
      by_cases hi : i = c
      · subst hi; simp
      · simp [hi]
    · rw [r]
      by_cases hcs : cs = []
      · subst hcs
        rw [b]
        · simp [hk]
        · intro c' hc' hh
          rw [hk] at hh
          have := (hall c').mpr hh
          simp at this
          exact hc' this
      · obtain ⟨c', hc'⟩ := List.exists_mem_of_ne_nil cs hcs
        rw [a ⟨c', fun hx => hnc (hx ▸ hc'), by rw [hk]; exact (hall c').mp (by simp [hc'])⟩]
        simp [hcs]

end Webwire
