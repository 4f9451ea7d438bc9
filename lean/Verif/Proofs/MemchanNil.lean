import Verif.Spec.MemchanNil


/-!
# References of memchan sockets: an invariant

Used by `Props/MemchanNil`.
-/

set_option autoImplicit false
set_option linter.unusedSimpArgs false
namespace Webwire.Nil

open Spec

/-- The socket has a remote socket that has it, with the same transport and status, and of the other kind. -/
structure Paired (h : Heap) (a : Nat) (s : Sock) : Prop where
  ex : ∃ r t s' tr, s.remote = some r ∧ s.server = some t ∧ h.socks[r]? = some s' ∧ h.trans[t]? = some tr ∧ tr.ready = true ∧
    s'.remote = some a ∧ s'.server = s.server ∧ s'.status = s.status ∧
    ((s.kind = .server ∧ s'.kind = .client) ∨ (s.kind = .client ∧ s'.kind = .server))

/-- What holds of all sockets, statuses and transports. -/
structure Inv (h : Heap) : Prop where
  socks : ∀ (a : Nat) (s : Sock), h.socks[a]? = some s → ∃ c b, s.status = some c ∧ h.cells[c]? = some b ∧
    (Paired h a s ∨ (s.kind = .client ∧ s.server = none ∧ s.remote = none ∧ b = false))
  share : ∀ (a a' : Nat) (s s' : Sock), h.socks[a]? = some s → h.socks[a']? = some s' → s.status = s'.status → a = a' ∨ s.remote = some a'
  trans : ∀ (t : Nat) (tr : Tran), h.trans[t]? = some tr → (tr.bufferSize ≥ 1 → tr.ready = true) ∧ (tr.active = true → tr.ready = true) ∧
    ∀ c ∈ tr.conns, c < h.socks.length

theorem Paired.grow {h h' : Heap} (h1 : ∀ (a : Nat) (s : Sock), h.socks[a]? = some s → h'.socks[a]? = some s)
    (h2 : h'.trans = h.trans) {a : Nat} {s : Sock} (hp : Paired h a s) : Paired h' a s := by
  obtain ⟨r, t, s', tr, k1, k2, k3, k4, k5⟩ := hp.ex
  exact ⟨r, t, s', tr, k1, k2, h1 _ _ k3, h2 ▸ k4, k5⟩

theorem inv_newSocketD {h : Heap} (hi : Inv h) : Inv (newDisconnectedSocket h).1 := by
  have hg : ∀ (a : Nat) (s : Sock), (h.socks ++ [(⟨.client, none, none, some h.cells.length⟩ : Sock)])[a]? = some s →
      h.socks[a]? = some s ∨ (a = h.socks.length ∧ s = ⟨.client, none, none, some h.cells.length⟩) := by grind
  have hlt : ∀ (a : Nat) (s : Sock), h.socks[a]? = some s → ∃ c, s.status = some c ∧ c < h.cells.length := by
    intro a s hs
    obtain ⟨c, b, h1, h2, _⟩ := hi.socks a s hs
    exact ⟨c, h1, by grind⟩
  refine ⟨?_, ?_, ?_⟩
  · intro a s hs
    rcases hg a s hs with h0 | ⟨rfl, rfl⟩
    · obtain ⟨c, b, h1, h2, h3⟩ := hi.socks a s h0
      refine ⟨c, b, h1, by simp [newDisconnectedSocket]; grind, h3.imp (Paired.grow (h := h) (h' := (newDisconnectedSocket h).1) ?_ rfl) id⟩
      simp [newDisconnectedSocket]; grind
    · exact ⟨h.cells.length, false, rfl, by simp [newDisconnectedSocket], .inr ⟨rfl, rfl, rfl, rfl⟩⟩
  · intro a a' s s' hs hs' he
    rcases hg a s hs with h0 | ⟨rfl, rfl⟩ <;> rcases hg a' s' hs' with h0' | ⟨rfl, rfl⟩
    · exact hi.share a a' s s' h0 h0' he
    · obtain ⟨c, h1, h2⟩ := hlt _ _ h0; rw [h1] at he; simp at he; omega
    · obtain ⟨c, h1, h2⟩ := hlt _ _ h0'; rw [h1] at he; simp at he; omega
    · exact .inl rfl
  · intro t tr ht
    obtain ⟨h1, h2, h3⟩ := hi.trans t tr ht
    refine ⟨h1, h2, fun c hc => ?_⟩
    have := h3 c hc
    simp [newDisconnectedSocket]; omega

/-- Statuses may change as long as those of single sockets do not. -/
theorem Inv.cell {h : Heap} (hi : Inv h) {a : Nat} {s : Sock} {c : Nat} (hs : h.socks[a]? = some s) (hc : s.status = some c)
    (hp : s.remote ≠ none) (b : Bool) : Inv { h with cells := h.cells.set c b } := by
  refine ⟨?_, hi.share, hi.trans⟩
  intro a' s' hs'
  obtain ⟨c', b', h1, h2, h3⟩ := hi.socks a' s' hs'
  have hlt : c' < h.cells.length := by grind
  refine ⟨c', if c' = c then b else b', h1, by grind, ?_⟩
  rcases h3 with h3 | h3
  · exact .inl ⟨h3.ex⟩
  · right
    refine ⟨h3.1, h3.2.1, h3.2.2.1, ?_⟩
    split
    · subst_vars
      have := hi.share a' a s' s hs' hs (h1.trans hc.symm)
      rcases this with rfl | h
      · grind
      · rw [h3.2.2.1] at h; cases h
    · exact h3.2.2.2

theorem Inv.tran {h : Heap} (hi : Inv h) {t : Nat} {tr : Tran} (ht : h.trans[t]? = some tr) (tr' : Tran)
    (hr : tr.ready = true → tr'.ready = true) (hb : tr'.bufferSize ≥ 1 → tr'.ready = true) (ha : tr'.active = true → tr'.ready = true)
    (hc : ∀ c ∈ tr'.conns, c < h.socks.length) : Inv { h with trans := h.trans.set t tr' } := by
  refine ⟨?_, hi.share, ?_⟩
  · intro a s hs
    obtain ⟨c, b, h1, h2, h3⟩ := hi.socks a s hs
    refine ⟨c, b, h1, h2, h3.imp (fun h3 => ⟨?_⟩) id⟩
    obtain ⟨r, t', s', tr0, k1, k2, k3, k4, k5, k6⟩ := h3.ex
    refine ⟨r, t', s', if t' = t then tr' else tr0, k1, k2, k3, ?_, ?_, k6⟩ <;> grind
  · intro t' tr0 h0
    have := hi.trans t' tr0
    grind

/-- What `NewEntangledSockets` makes. -/
def withPair (h : Heap) (t : Nat) : Heap :=
  { h with
    socks := h.socks ++ [⟨.server, some t, some (h.socks.length + 1), some h.cells.length⟩,
      ⟨.client, some t, some h.socks.length, some h.cells.length⟩],
    cells := h.cells ++ [false] }

theorem pair_ok {h : Heap} {t : Nat} {tr : Tran} (ht : h.trans[t]? = some tr) (hb : ¬ tr.bufferSize < 1) :
    newEntangledSockets h (some t) = .ok (withPair h t, h.socks.length, h.socks.length + 1) := by
  simp [newEntangledSockets, deref, ht, newSocket, hb, entangleSockets, bind, Except.bind, pure, Except.pure, withPair]

theorem inv_pair {h : Heap} {t : Nat} {tr : Tran} (hi : Inv h) (ht : h.trans[t]? = some tr) (hb : ¬ tr.bufferSize < 1) :
    Inv (withPair h t) := by
  have hr := (hi.trans t tr ht).1 (by omega)
  have hg : ∀ (a : Nat) (s : Sock), (withPair h t).socks[a]? = some s → h.socks[a]? = some s ∨
      (a = h.socks.length ∧ s = ⟨.server, some t, some (h.socks.length + 1), some h.cells.length⟩) ∨
      (a = h.socks.length + 1 ∧ s = ⟨.client, some t, some h.socks.length, some h.cells.length⟩) := by
    simp only [withPair]; grind
  have hup : ∀ (a : Nat) (s : Sock), h.socks[a]? = some s → (withPair h t).socks[a]? = some s := by
    simp only [withPair]; grind
  have hlt : ∀ (a : Nat) (s : Sock), h.socks[a]? = some s → ∃ c, s.status = some c ∧ c < h.cells.length := by
    intro a s hs
    obtain ⟨c, b, h1, h2, _⟩ := hi.socks a s hs
    exact ⟨c, h1, by grind⟩
  refine ⟨?_, ?_, ?_⟩
  · intro a s hs
    rcases hg a s hs with h0 | ⟨rfl, rfl⟩ | ⟨rfl, rfl⟩
    · obtain ⟨c, b, h1, h2, h3⟩ := hi.socks a s h0
      refine ⟨c, b, h1, by simp only [withPair]; grind, h3.imp (Paired.grow (h := h) (h' := withPair h t) hup rfl) id⟩
    · exact ⟨h.cells.length, false, rfl, by simp [withPair], .inl ⟨h.socks.length + 1, t, ⟨.client, some t, some h.socks.length, some h.cells.length⟩, tr, rfl, rfl, by simp [withPair], ht, hr, rfl, rfl, rfl, .inl ⟨rfl, rfl⟩⟩⟩
    · exact ⟨h.cells.length, false, rfl, by simp [withPair], .inl ⟨h.socks.length, t, ⟨.server, some t, some (h.socks.length + 1), some h.cells.length⟩, tr, rfl, rfl, by simp [withPair], ht, hr, rfl, rfl, rfl, .inr ⟨rfl, rfl⟩⟩⟩
  · intro a a' s s' hs hs' he
    rcases hg a s hs with h0 | ⟨rfl, rfl⟩ | ⟨rfl, rfl⟩ <;> rcases hg a' s' hs' with h0' | ⟨rfl, rfl⟩ | ⟨rfl, rfl⟩
    · exact hi.share a a' s s' h0 h0' he
    all_goals first
      | exact .inl rfl
      | exact .inr rfl
      | (obtain ⟨c, h1, h2⟩ := hlt _ _ h0; rw [h1] at he; simp at he; omega)
      | (obtain ⟨c, h1, h2⟩ := hlt _ _ h0'; rw [h1] at he; simp at he; omega)
  · intro t' tr' ht'
    obtain ⟨h1, h2, h3⟩ := hi.trans t' tr' ht'
    refine ⟨h1, h2, fun c hc => ?_⟩
    have := h3 c hc
    simp [withPair]; omega

theorem close_ok {h : Heap} (hi : Inv h) {a : Nat} (ha : a < h.socks.length) :
    ∃ h', close h a = .ok (h', .ok) ∧ Inv h' ∧ h'.socks = h.socks ∧ h'.trans.length = h.trans.length ∧
      ∀ (c : Nat) (s : Sock), h.socks[a]? = some s → s.status ≠ some c → h'.cells[c]? = h.cells[c]? := by
  obtain ⟨c, b, h1, h2, h3⟩ := hi.socks a h.socks[a] (by simp [ha])
  have hs : h.socks[a]? = some h.socks[a] := by simp [ha]
  generalize h.socks[a] = s at *
  cases b with
  | false => exact ⟨h, by simp [close, deref, hs, h1, h2, bind, Except.bind, pure, Except.pure], hi, rfl, rfl, fun _ _ _ _ => rfl⟩
  | true =>
    have hp : Paired h a s := h3.resolve_right (by simp)
    obtain ⟨r, t, s', tr, k1, k2, k3, k4, k5, k6⟩ := hp.ex
    refine ⟨{ h with cells := h.cells.set c false, trans := h.trans.set t { tr with
        conns := tr.conns.filter fun c => some c ≠ (if s.kind = .client then some r else some a) } },
      by simp [close, deref, hs, h1, h2, bind, Except.bind, pure, Except.pure, k1, k2, k3, k4, onDisconnect, k5], ?_, rfl, by simp, by grind⟩
    have := hi.cell hs h1 (by simp [k1]) false
    obtain ⟨q1, q2, q3⟩ := hi.trans t tr k4
    refine this.tran k4 _ (fun h => h) q1 q2 ?_
    intro x hx
    exact q3 x (by simp at hx; exact hx.1)

theorem closeAll_ok (as : List Nat) {h : Heap} (hi : Inv h) (ha : ∀ a ∈ as, a < h.socks.length) :
    ∃ h', closeAll h as = .ok h' ∧ Inv h' ∧ h'.socks = h.socks ∧ h'.trans.length = h.trans.length := by
  induction as generalizing h with
  | nil => exact ⟨h, rfl, hi, rfl, rfl⟩
  | cons a as ih =>
    obtain ⟨h1, e1, i1, s1, t1, -⟩ := close_ok hi (ha a (by simp))
    obtain ⟨h2, e2, i2, s2, t2⟩ := ih i1 (by rw [s1]; exact fun x hx => ha x (by simp [hx]))
    exact ⟨h2, by simp [closeAll, e1, bind, Except.bind, e2], i2, s2.trans s1, t2.trans t1⟩

theorem dial_ok {h : Heap} (hi : Inv h) {a : Nat} (ha : a < h.socks.length) (accept down : Bool) :
    ∃ h' r, dial h a accept down = .ok (h', r) ∧ Inv h' ∧ h'.socks = h.socks ∧
      ∀ (c : Nat) (s : Sock), h.socks[a]? = some s → s.status ≠ some c → h'.cells[c]? = h.cells[c]? := by
  have hs : h.socks[a]? = some h.socks[a] := List.getElem?_eq_getElem ha
  generalize h.socks[a] = s at hs
  obtain ⟨c, b, h1, h2, h3⟩ := hi.socks a _ hs
  by_cases hk : s.kind = .client
  rotate_left
  · exact ⟨h, _, by simp [dial, deref, hs, hk, bind, Except.bind, pure, Except.pure]; rfl, hi, rfl, fun _ _ _ _ => rfl⟩
  rcases h3 with hp | h3
  rotate_left
  · exact ⟨h, _, by simp [dial, deref, hs, hk, h3.2.1, bind, Except.bind, pure, Except.pure]; rfl, hi, rfl, fun _ _ _ _ => rfl⟩
  obtain ⟨r, t, s', tr, k1, k2, k3, k4, k5, k6⟩ := hp.ex
  cases accept with
  | false => exact ⟨h, _, by simp [dial, deref, hs, hk, k2, k4, k5, bind, Except.bind, pure, Except.pure]; rfl, hi, rfl, fun _ _ _ _ => rfl⟩
  | true =>
    cases b with
    | true => exact ⟨h, _, by simp [dial, deref, hs, hk, k2, k4, k5, h1, h2, bind, Except.bind, pure, Except.pure]; rfl, hi, rfl, fun _ _ _ _ => rfl⟩
    | false =>
      have i1 := hi.cell hs h1 (by simp [k1]) true
      cases down with
      | true => exact ⟨_, _, by simp [dial, deref, hs, hk, k1, k2, k3, k4, k5, h1, h2, onConnect, bind, Except.bind, pure, Except.pure]; rfl, i1, rfl, by grind⟩
      | false =>
        by_cases hact : tr.active = true
        · refine ⟨{ h with cells := h.cells.set c true, trans := h.trans.set t { tr with conns := r :: tr.conns } }, .ok, by simp [dial, deref, hs, hk, k1, k2, k3, k4, k5, h1, h2, onConnect, hact, bind, Except.bind, pure, Except.pure], ?_, rfl, by grind⟩
          obtain ⟨q1, q2, q3⟩ := hi.trans t tr k4
          exact i1.tran k4 _ (fun h => h) q1 q2 (by
            intro x hx
            simp at hx
            rcases hx with rfl | hx
            · simp only; grind
            · exact q3 x hx)
        · exact ⟨_, _, by simp [dial, deref, hs, hk, k1, k2, k3, k4, k5, h1, h2, onConnect, hact, bind, Except.bind, pure, Except.pure]; rfl, i1, rfl, by grind⟩

theorem run_ok {h : Heap} (hi : Inv h) (op : Op) (hv : Valid h op) :
    (∃ h' r, run h op = .ok (h', r) ∧ Inv h') ∨ (run h op = goPanic "empty buffer" ∧ NoBuffers h op) := by
  have mk : ∀ t, t < h.trans.length → (∃ tr, h.trans[t]? = some tr ∧ ¬ tr.bufferSize < 1) ∨
      (∃ tr, h.trans[t]? = some tr ∧ tr.bufferSize = 0) := by
    intro t ht
    by_cases hb : (h.trans[t]).bufferSize < 1
    · exact .inr ⟨_, by simp [ht]; rfl, by omega⟩
    · exact .inl ⟨_, List.getElem?_eq_getElem ht, hb⟩
  cases op with
  | newTransport =>
    refine .inl ⟨_, _, rfl, ?_, hi.share, ?_⟩
    · intro a s hs
      obtain ⟨c, b, h1, h2, h3⟩ := hi.socks a s hs
      refine ⟨c, b, h1, h2, h3.imp (fun hp => ?_) id⟩
      obtain ⟨r, t, s', tr, k1, k2, k3, k4, k5⟩ := hp.ex
      exact ⟨r, t, s', tr, k1, k2, k3, by grind, k5⟩
    · intro t tr ht
      have : h.trans[t]? = some tr ∨ tr = {} := by grind
      rcases this with h0 | rfl
      · exact hi.trans t tr h0
      · simp
  | init t size =>
    refine .inl ⟨_, _, by simp [run, initTransport, deref, show h.trans[t]? = some h.trans[t] by grind [Valid], bind, Except.bind, pure, Except.pure]; exact ⟨rfl, rfl⟩, ?_⟩
    exact hi.tran (t := t) (tr := h.trans[t]) (by grind [Valid]) _ (fun _ => rfl) (fun _ => rfl) (fun _ => rfl) (by simp)
  | shutdown t =>
    have ht : h.trans[t]? = some h.trans[t] := by grind [Valid]
    generalize h.trans[t] = tr at ht
    obtain ⟨k1, k2, k3⟩ := hi.trans t tr ht
    by_cases hact : tr.active = true
    · have i1 := hi.tran ht { tr with active := false } (fun h => h) k1 (by simp) k3
      obtain ⟨h2, e2, i2, -⟩ := closeAll_ok tr.conns i1 k3
      exact .inl ⟨h2, .ok, by simp [run, shutdown, deref, ht, hact, bind, Except.bind, pure, Except.pure, e2], i2⟩
    · exact .inl ⟨h, .ok, by simp [run, shutdown, deref, ht, hact, bind, Except.bind, pure, Except.pure], hi⟩
  | newSocket t =>
    cases t with
    | none => exact .inl ⟨_, _, rfl, inv_newSocketD hi⟩
    | some t =>
      rcases mk t hv with ⟨tr, ht, hb⟩ | ⟨tr, ht, hb⟩
      · exact .inl ⟨_, _, by simp [run, clientNewSocket, pair_ok ht hb, bind, Except.bind, pure, Except.pure]; rfl, inv_pair hi ht hb⟩
      · exact .inr ⟨by simp [run, clientNewSocket, newEntangledSockets, deref, ht, newSocket, hb, bind, Except.bind, goPanic], tr, ht, hb⟩
  | newPair t =>
    rcases mk t hv with ⟨tr, ht, hb⟩ | ⟨tr, ht, hb⟩
    · exact .inl ⟨_, _, by simp [run, pair_ok ht hb, bind, Except.bind, pure, Except.pure]; rfl, inv_pair hi ht hb⟩
    · exact .inr ⟨by simp [run, newEntangledSockets, deref, ht, newSocket, hb, bind, Except.bind, goPanic], tr, ht, hb⟩
  | close a => 
    obtain ⟨h', e, i, -⟩ := close_ok hi hv
    exact .inl ⟨h', _, e, i⟩
  | remoteAddr a =>
    exact .inl ⟨h, _, by simp [run, deref, show h.socks[a]? = some h.socks[a] by grind [Valid], bind, Except.bind, pure, Except.pure]; rfl, hi⟩
  | isConnected a =>
    have hs : h.socks[a]? = some h.socks[a] := by grind [Valid]
    obtain ⟨c, b, h1, h2, h3⟩ := hi.socks a _ hs
    exact .inl ⟨h, _, by simp [run, deref, hs, isConnected, h1, h2, bind, Except.bind, pure, Except.pure]; rfl, hi⟩
  | begin a =>
    have hs : h.socks[a]? = some h.socks[a] := by grind [Valid]
    generalize h.socks[a] = s at hs
    obtain ⟨c, b, h1, h2, h3⟩ := hi.socks a _ hs
    cases b with
    | false => exact .inl ⟨h, _, by simp [run, begin, deref, hs, isConnected, h1, h2, bind, Except.bind, pure, Except.pure]; rfl, hi⟩
    | true =>
      have hp : Paired h a s := h3.resolve_right (by simp)
      obtain ⟨r, t, s', tr, k1, k2, k3, k4, k5, k6⟩ := hp.ex
      exact .inl ⟨h, _, by simp [run, begin, deref, hs, isConnected, h1, h2, k1, k3, bind, Except.bind, pure, Except.pure]; rfl, hi⟩
  | dial a accept down =>
    obtain ⟨h', r, e, i, -⟩ := dial_ok hi hv accept down
    exact .inl ⟨h', r, e, i⟩

theorem inv_start : Inv {} := ⟨by simp, by simp, by simp⟩

theorem steps_inv {h h' : Heap} (hs : Steps h h') (hi : Inv h) : Inv h' := by
  induction hs with
  | refl => exact hi
  | step h1 h2 op r _ hv e ih =>
    rcases run_ok ih op hv with ⟨h3, r3, e3, i3⟩ | ⟨e3, -⟩
    · rw [e] at e3; cases e3; exact i3
    · rw [e] at e3; cases e3

/-- Sockets are never changed once they are made. -/
theorem run_socks {h h' : Heap} {op : Op} {r : Res} (hi : Inv h) (hv : Valid h op) (e : run h op = .ok (h', r)) {a : Nat} {s : Sock}
    (hs : h.socks[a]? = some s) : h'.socks[a]? = some s := by
  have mk : ∀ t, t < h.trans.length → (∃ tr, h.trans[t]? = some tr ∧ ¬ tr.bufferSize < 1) ∨
      (∃ tr, h.trans[t]? = some tr ∧ tr.bufferSize = 0) := by
    intro t ht
    by_cases hb : (h.trans[t]).bufferSize < 1
    · exact .inr ⟨_, List.getElem?_eq_getElem ht, by omega⟩
    · exact .inl ⟨_, List.getElem?_eq_getElem ht, hb⟩
  cases op with
  | newTransport => cases e; exact hs
  | init t size =>
    simp [run, initTransport, deref, show h.trans[t]? = some h.trans[t] from List.getElem?_eq_getElem hv, bind, Except.bind, pure,
      Except.pure] at e
    rw [← e.1]; exact hs
  | shutdown t =>
    have ht : h.trans[t]? = some h.trans[t] := by grind [Valid]
    generalize h.trans[t] = tr at ht
    obtain ⟨k1, k2, k3⟩ := hi.trans t tr ht
    by_cases hact : tr.active = true
    · have i1 := hi.tran ht { tr with active := false } (fun h => h) k1 (by simp) k3
      obtain ⟨h2, e2, i2, s2, -⟩ := closeAll_ok tr.conns i1 k3
      simp [run, shutdown, deref, ht, hact, bind, Except.bind, pure, Except.pure, e2] at e
      rw [← e.1, s2]; exact hs
    · simp [run, shutdown, deref, ht, hact, bind, Except.bind, pure, Except.pure] at e
      rw [← e.1]; exact hs
  | newSocket t =>
    cases t with
    | none => cases e; simp [newDisconnectedSocket]; grind
    | some t =>
      rcases mk t hv with ⟨tr, ht, hb⟩ | ⟨tr, ht, hb⟩
      · simp [run, clientNewSocket, pair_ok ht hb, bind, Except.bind, pure, Except.pure] at e
        rw [← e.1]; simp only [withPair]; grind
      · simp [run, clientNewSocket, newEntangledSockets, deref, ht, newSocket, hb, bind, Except.bind, goPanic] at e
  | newPair t =>
    rcases mk t hv with ⟨tr, ht, hb⟩ | ⟨tr, ht, hb⟩
    · simp [run, pair_ok ht hb, bind, Except.bind, pure, Except.pure] at e
      rw [← e.1]; simp only [withPair]; grind
    · simp [run, newEntangledSockets, deref, ht, newSocket, hb, bind, Except.bind, goPanic] at e
  | close a' =>
    obtain ⟨h2, e2, i, s2, -⟩ := close_ok hi hv
    simp only [run] at e
    rw [e2] at e; cases e; rw [s2]; exact hs
  | remoteAddr a' =>
    simp only [run, deref, bind, Except.bind, pure, Except.pure] at e
    split at e <;> simp_all
  | isConnected a' =>
    simp only [run, isConnected, deref, bind, Except.bind, pure, Except.pure] at e
    grind [goPanic]
  | begin a' =>
    simp only [run, begin, isConnected, deref, bind, Except.bind, pure, Except.pure] at e
    grind [goPanic]
  | dial a' accept down =>
    obtain ⟨h2, r2, e2, -, s2, -⟩ := dial_ok hi hv accept down
    simp only [run] at e
    rw [e2] at e; cases e; rw [s2]; exact hs

/-- Only dialing and closing change statuses, those of the socket, and shutting down. -/
theorem run_cells {h h' : Heap} {op : Op} {r : Res} (hi : Inv h) (hv : Valid h op) (e : run h op = .ok (h', r)) {c : Nat} (hc : c < h.cells.length)
    (h1 : ∀ (b : Nat) (ac dn : Bool) (s : Sock), op = .dial b ac dn ∨ op = .close b → h.socks[b]? = some s → s.status ≠ some c)
    (h2 : ∀ t, op ≠ .shutdown t) : h'.cells[c]? = h.cells[c]? := by
  have mk : ∀ t, t < h.trans.length → (∃ tr, h.trans[t]? = some tr ∧ ¬ tr.bufferSize < 1) ∨
      (∃ tr, h.trans[t]? = some tr ∧ tr.bufferSize = 0) := by
    intro t ht
    by_cases hb : (h.trans[t]).bufferSize < 1
    · exact .inr ⟨_, List.getElem?_eq_getElem ht, by omega⟩
    · exact .inl ⟨_, List.getElem?_eq_getElem ht, hb⟩
  cases op with
  | newTransport => cases e; rfl
  | init t size =>
    simp [run, initTransport, deref, show h.trans[t]? = some h.trans[t] from List.getElem?_eq_getElem hv, bind, Except.bind, pure,
      Except.pure] at e
    rw [← e.1]
  | shutdown t => exact absurd rfl (h2 t)
  | newSocket t =>
    cases t with
    | none => cases e; simp [newDisconnectedSocket]; grind
    | some t =>
      rcases mk t hv with ⟨tr, ht, hb⟩ | ⟨tr, ht, hb⟩
      · simp [run, clientNewSocket, pair_ok ht hb, bind, Except.bind, pure, Except.pure] at e
        rw [← e.1]; simp only [withPair]; grind
      · simp [run, clientNewSocket, newEntangledSockets, deref, ht, newSocket, hb, bind, Except.bind, goPanic] at e
  | newPair t =>
    rcases mk t hv with ⟨tr, ht, hb⟩ | ⟨tr, ht, hb⟩
    · simp [run, pair_ok ht hb, bind, Except.bind, pure, Except.pure] at e
      rw [← e.1]; simp only [withPair]; grind
    · simp [run, newEntangledSockets, deref, ht, newSocket, hb, bind, Except.bind, goPanic] at e
  | close a' =>
    obtain ⟨h2, e2, i, s2, -, q⟩ := close_ok hi hv
    simp only [run] at e
    rw [e2] at e; cases e
    have hs := List.getElem?_eq_getElem hv
    exact q c _ hs (h1 a' true true _ (.inr rfl) hs)
  | remoteAddr a' =>
    simp only [run, deref, bind, Except.bind, pure, Except.pure] at e
    split at e <;> simp_all
  | isConnected a' =>
    simp only [run, isConnected, deref, bind, Except.bind, pure, Except.pure] at e
    grind [goPanic]
  | begin a' =>
    simp only [run, begin, isConnected, deref, bind, Except.bind, pure, Except.pure] at e
    grind [goPanic]
  | dial a' accept down =>
    obtain ⟨h2, r2, e2, -, s2, q⟩ := dial_ok hi hv accept down
    simp only [run] at e
    rw [e2] at e; cases e
    have hs := List.getElem?_eq_getElem hv
    exact q c _ hs (h1 a' accept down _ (.inl rfl) hs)

theorem steps_socks {h h' : Heap} (hs : Steps h h') (hi : Inv h) {a : Nat} {s : Sock} (ha : h.socks[a]? = some s) :
    h'.socks[a]? = some s := by
  induction hs with
  | refl => exact ha
  | step h1 h2 op r h01 hv e ih => exact run_socks (steps_inv h01 hi) hv e ih

end Webwire.Nil
