import Verif.Spec.Client
import Verif.Proofs.Connection

/-! Helper lemmas: what clients receive on the networks of `Spec.Net`, and what they conclude. -/

set_option autoImplicit false

namespace Webwire
open Spec

variable {υ : Type}

/-- A message of length `n` fits the buffers of the network. -/
def Room (cap : Option Nat) (n : Nat) : Prop := ∀ k, cap = some k → n ≤ k

theorem Room.mono {cap : Option Nat} {n n' : Nat} (h : Room cap n) (hn : n' ≤ n) : Room cap n' :=
  fun k hk => Nat.le_trans hn (h k hk)

/-- Nothing of a message on `c` is kept. -/
def Spec.Net.dropped (n : Net) (c : ConnId) : Net :=
  { n with pending := fun i => if i = c then [] else n.pending i }

theorem dropped_same {n : Net} {c : ConnId} (h : n.pending c = []) : n.dropped c = n := by
  obtain ⟨p, o, k⟩ := n
  simp only [Net.dropped]
  congr 1
  funext i
  by_cases hi : i = c
  · subst hi; simpa using h.symm
  · simp [hi]

theorem closeWith_net (cap : Option Nat) (c : ConnId) (n : Net) (er : Err) (h : n.pending c = []) :
    ∃ e, closeWith ((netSockets cap).writer c) n er = .ok (n, some e) := by
  simp only [closeWith, netSockets, h, bind, Except.bind, if_true, pure, Except.pure]
  exact ⟨_, rfl⟩

theorem runParts_net (cap : Option Nat) (c : ConnId) (parts : List Bytes) : ∀ (n : Net),
    n.pending c ++ parts.flatten ≠ [] → Room cap (n.pending c).length →
    (Room cap (n.pending c ++ parts.flatten).length ∧
      runParts ((netSockets cap).writer c) n parts = .ok (n.deliver c (n.pending c ++ parts.flatten), none)) ∨
    (¬ Room cap (n.pending c ++ parts.flatten).length ∧
      ∃ e, runParts ((netSockets cap).writer c) n parts = .ok (n.dropped c, some e)) := by
  induction parts with
  | nil =>
    intro n h hr
    simp only [List.flatten_nil, List.append_nil] at h ⊢
    left
    refine ⟨hr, ?_⟩
    simp [runParts, netSockets, h, Net.deliver]
  | cons p ps ih =>
    intro n h hr
    by_cases hc : (cap.any fun k => decide ((n.pending c).length + p.length > k)) = true
    · right
      obtain ⟨k, hk, hk'⟩ : ∃ k, cap = some k ∧ (n.pending c).length + p.length > k := by
        cases cap with
        | none => simp at hc
        | some k => exact ⟨k, rfl, by simpa using hc⟩
      refine ⟨fun hh => ?_, ?_⟩
      · have := hh k hk
        simp at this
        omega
      · simp only [runParts, writePart, bind, Except.bind]
        have e : ((netSockets cap).writer c).write n p = .ok (n.dropped c, some "message buffer overflow") := by
          simp only [netSockets]
          rw [if_pos hc]
          rfl
        rw [e]
        exact closeWith_net cap c _ _ (by simp [Net.dropped])
    · have e : ((netSockets cap).writer c).write n p =
          .ok ({ n with pending := fun i => if i = c then n.pending c ++ p else n.pending i }, none) := by
        simp only [netSockets]
        rw [if_neg hc]
      have hr' : Room cap ((n.pending c) ++ p).length := by
        intro k hk
        subst hk
        simp only [Option.any_some, decide_eq_true_eq] at hc
        simp only [List.length_append]
        omega
      have := ih { n with pending := fun i => if i = c then n.pending c ++ p else n.pending i }
        (by simpa [List.append_assoc] using h) (by simpa using hr')
      simp only [if_true, List.append_assoc] at this
      simp only [runParts, writePart, bind, Except.bind, List.flatten_cons]
      rw [e]
      rcases this with ⟨h1, h2⟩ | ⟨h1, er, h2⟩
      · refine .inl ⟨h1, ?_⟩
        simp only
        rw [h2]
        simp only [Net.deliver, Except.ok.injEq, Prod.mk.injEq, and_true]
        congr 1
        funext i
        by_cases hi : i = c <;> simp [hi]
      · refine .inr ⟨h1, er, ?_⟩
        simp only
        rw [h2]
        simp only [Net.dropped, Except.ok.injEq, Prod.mk.injEq, and_true]
        congr 1
        funext i
        by_cases hi : i = c <;> simp [hi]

theorem layout_ne_nil (call : WriterCall) : call.layout ≠ [] := by cases call <;> simp [WriterCall.layout]

variable {srv : Server Net υ} {cap : Option Nat}

/-- Writing something on a connection: it is delivered as a whole or nothing happens. -/
theorem withWriter_parts {w w' : World Net υ} {c : ConnId} {e : Option Err} {f : Writer Net → Net → Go (Net × Option Err)}
    {V : Prop} {bs : Bytes} (hs : srv.sock = netSockets cap) (h0 : w.net.pending c = []) (hne : bs ≠ [])
    (hv : V → ∃ parts, f (srv.sock.writer c) w.net = runParts (srv.sock.writer c) w.net parts ∧ parts.flatten = bs)
    (hb : ¬ V → ∃ er, f (srv.sock.writer c) w.net = closeWith (srv.sock.writer c) w.net er)
    (h : withWriter srv w c f = .ok (w', e)) :
    w'.conns = w.conns ∧ w'.user = w.user ∧ w'.registry = w.registry ∧
    ((e = none ∧ w.net.connected c = true ∧ V ∧ Room cap bs.length ∧ w'.net = w.net.deliver c bs) ∨
     (e ≠ none ∧ w'.net = w.net ∧ ¬ (w.net.connected c = true ∧ V ∧ Room cap bs.length))) := by
  rcases withWriter_ok h with ⟨net, er, hg, rfl, he⟩ | ⟨net, net', hg, hf, rfl⟩
  · rw [hs] at hg
    simp only [netSockets] at hg
    split_ifs at hg with hc
    · simp at hg
    · simp only [Except.ok.injEq, Prod.mk.injEq] at hg
      refine ⟨rfl, rfl, rfl, .inr ⟨by rw [he]; simp, hg.1.symm, fun hh => hc hh.1⟩⟩
  · rw [hs] at hg
    simp only [netSockets] at hg
    split_ifs at hg with hc
    · simp only [Except.ok.injEq, Prod.mk.injEq] at hg
      rw [← hg.1] at hf
      refine ⟨rfl, rfl, rfl, ?_⟩
      by_cases hV : V
      · obtain ⟨parts, h1, h2⟩ := hv hV
        rw [h1, hs] at hf
        have key := runParts_net cap c parts w.net (by rw [h0, h2]; exact hne)
          (by rw [h0]; intro k _; exact Nat.zero_le k)
        rw [h0, h2] at key
        simp only [List.nil_append] at key
        rcases key with ⟨k1, k2⟩ | ⟨k1, er, k2⟩
        · rw [k2] at hf
          simp only [Except.ok.injEq, Prod.mk.injEq] at hf
          exact .inl ⟨hf.2.symm, hc, hV, k1, hf.1.symm⟩
        · rw [k2] at hf
          simp only [Except.ok.injEq, Prod.mk.injEq] at hf
          refine .inr ⟨by rw [← hf.2]; simp, ?_, fun hh => k1 hh.2.2⟩
          show net' = w.net
          rw [← hf.1, dropped_same h0]
      · obtain ⟨er, h1⟩ := hb hV
        obtain ⟨er', h2⟩ := closeWith_net cap c w.net er h0
        rw [h1, hs, h2] at hf
        simp only [Except.ok.injEq, Prod.mk.injEq] at hf
        exact .inr ⟨by rw [← hf.2]; simp, hf.1.symm, fun hh => hV hh.2.1⟩
    · simp at hg

/-- Writing a message. -/
theorem withWriter_net {w w' : World Net υ} {c : ConnId} {e : Option Err} {call : WriterCall}
    (hs : srv.sock = netSockets cap) (h0 : w.net.pending c = []) (hp : ¬ call.Panics)
    (h : withWriter srv w c (fun wr s => call.run wr s) = .ok (w', e)) :
    w'.conns = w.conns ∧ w'.user = w.user ∧ w'.registry = w.registry ∧
    ((e = none ∧ w.net.connected c = true ∧ call.Valid ∧ Room cap call.layout.length ∧
        w'.net = w.net.deliver c call.layout) ∨
     (e ≠ none ∧ w'.net = w.net ∧ ¬ (w.net.connected c = true ∧ call.Valid ∧ Room cap call.layout.length))) :=
  withWriter_parts (V := call.Valid) hs h0 (layout_ne_nil call)
    (fun hv => call_valid _ _ call hv hp) (fun hv => call_invalid _ _ call hv) h

/-! ## Notifications -/

/-- The messages that API calls send. -/
inductive Note (srv : Server Net υ) (ok : ApiCall → Prop) : Bytes → Prop
  | created (s : Session) (bs : Bytes) : srv.hooks.marshal s = .ok bs → Note srv ok (21 :: bs)
  | closed : Note srv ok [22]
  | signal (c : ConnId) (name : Bytes) (enc : Encoding) (payload : Bytes) : ok (.signal c name enc payload) →
      (name ≠ [] ∨ payload ≠ []) → (WriterCall.signal name enc payload true).Valid →
      Note srv ok (WriterCall.signal name enc payload true).layout

/-- Replies without data and encoded sessions that can be restored fit the buffers. -/
structure Roomy (srv : Server Net υ) (cap : Option Nat) : Prop where
  bare : Room cap 9
  found : ∀ u key r b, (srv.hooks.onSessionLookup u key).2 = .ok (some r) →
    srv.hooks.marshal { key := key, creation := r.creation, lastLookup := r.lastLookup, info := r.info } = .ok b →
    Room cap (9 + b.length)

/-- Connection `i` received nothing but notifications, none if it was closed, and they say what happened to its
session. -/
def NotedAt (srv : Server Net υ) (ok : ApiCall → Prop) (cap : Option Nat) (w w' : World Net υ) (i : ConnId) : Prop :=
  ∃ ns, w'.net.out i = w.net.out i ++ ns ∧ (∀ b ∈ ns, Note srv ok b) ∧ (w.net.connected i = false → ns = []) ∧
    (Roomy srv cap → w'.net.connected i = true → ∀ b, Told srv (w.conns i).session b →
      Told srv (w'.conns i).session (ns.foldl noted b))

/-- Between `w` and `w'` there were only notifications. -/
structure Notes (srv : Server Net υ) (ok : ApiCall → Prop) (cap : Option Nat) (w w' : World Net υ) : Prop where
  pending : ∀ i, w'.net.pending i = []
  connected : ∀ i, w'.net.connected i = true → w.net.connected i = true
  out : ∀ i, NotedAt srv ok cap w w' i

variable {ok : ApiCall → Prop}

theorem NotedAt.refl (w : World Net υ) (i : ConnId) : NotedAt srv ok cap w w i :=
  ⟨[], by simp, by simp, fun _ => rfl, fun _ _ _ h => h⟩

theorem NotedAt.trans {w w' w'' : World Net υ} {i : ConnId}
    (h1 : ∀ i, w'.net.connected i = true → w.net.connected i = true)
    (h2 : ∀ i, w''.net.connected i = true → w'.net.connected i = true)
    (h : NotedAt srv ok cap w w' i) (h' : NotedAt srv ok cap w' w'' i) : NotedAt srv ok cap w w'' i := by
  obtain ⟨l, e, hl, hd, ht⟩ := h
  obtain ⟨l', e', hl', hd', ht'⟩ := h'
  refine ⟨l ++ l', by rw [e', e, List.append_assoc], ?_, ?_, ?_⟩
  · intro x hx
    rcases List.mem_append.mp hx with hx | hx
    · exact hl x hx
    · exact hl' x hx
  · intro hc
    rw [hd hc, hd' ?_]
    · rfl
    · cases hc' : w'.net.connected i with
      | false => rfl
      | true => rw [h1 i hc'] at hc; cases hc
  · intro hr hc b hb
    rw [List.foldl_append]
    exact ht' hr hc _ (ht hr (h2 i hc) b hb)

theorem Notes.refl {w : World Net υ} (h0 : ∀ i, w.net.pending i = []) : Notes srv ok cap w w :=
  ⟨h0, fun _ h => h, fun i => NotedAt.refl w i⟩

theorem Notes.trans {w w' w'' : World Net υ} (h : Notes srv ok cap w w') (h' : Notes srv ok cap w' w'') :
    Notes srv ok cap w w'' :=
  ⟨h'.pending, fun i hi => h.connected i (h'.connected i hi),
    fun i => NotedAt.trans h.connected h'.connected (h.out i) (h'.out i)⟩

/-- `w'` differs from `w` only in things the clients do not see. -/
theorem Notes.same {w w' : World Net υ} (h0 : ∀ i, w.net.pending i = []) (hn : w'.net = w.net)
    (hc : ∀ i, (w'.conns i).session = (w.conns i).session) : Notes srv ok cap w w' :=
  ⟨by rw [hn]; exact h0, by rw [hn]; exact fun _ h => h,
    fun i => ⟨[], by rw [hn]; simp, by simp, fun _ => rfl, fun _ _ b hb => by rw [hc]; exact hb⟩⟩

theorem Notes.hook {w : World Net υ} (h0 : ∀ i, w.net.pending i = []) (e : Ev) (u : υ) :
    Notes srv ok cap w { w.log e with user := u } := Notes.same h0 rfl (fun _ => rfl)

theorem deliver_pending {n : Net} (h : ∀ i, n.pending i = []) (c : ConnId) (b : Bytes) (i : ConnId) :
    (n.deliver c b).pending i = [] := by
  by_cases hi : i = c <;> simp [Net.deliver, hi, h]

theorem deliver_out (n : Net) (c : ConnId) (b : Bytes) (i : ConnId) :
    (n.deliver c b).out i = n.out i ++ if i = c then [b] else [] := by
  by_cases hi : i = c
  · subst hi; simp [Net.deliver]
  · simp [Net.deliver, hi]

/-- A message is delivered to `c` and the session of `c` becomes `s`. -/
theorem Notes.deliver {w w' : World Net υ} {c : ConnId} {b : Bytes} (h0 : ∀ i, w.net.pending i = [])
    (hc : w.net.connected c = true) (hn : w'.net = w.net.deliver c b)
    (hs : ∀ i, i ≠ c → (w'.conns i).session = (w.conns i).session) (hb : Note srv ok b)
    (ht : Roomy srv cap → ∀ x, Told srv (w.conns c).session x → Told srv (w'.conns c).session (noted x b)) :
    Notes srv ok cap w w' := by
  refine ⟨?_, ?_, ?_⟩
  · rw [hn]; exact deliver_pending h0 c b
  · rw [hn]; exact fun _ h => h
  · intro i
    by_cases hi : i = c
    · subst hi
      refine ⟨[b], by rw [hn, deliver_out]; simp, by simpa using hb, fun h => ?_, fun hr _ x hx => ht hr x hx⟩
      rw [hc] at h; cases h
    · exact ⟨[], by rw [hn, deliver_out]; simp [hi], by simp, fun _ => rfl, fun _ _ x hx => by rw [hs i hi]; exact hx⟩

theorem signal_noted {name : Bytes} {enc : Encoding} {payload : Bytes} (x : Option Bytes) :
    noted x (WriterCall.signal name enc payload true).layout = x := by
  simp only [WriterCall.layout, noted]
  split_ifs <;> simp_all

theorem signal_notes {w w' : World Net υ} {c : ConnId} {name : Bytes} {enc : Encoding} {payload : Bytes}
    {e : Option Err} (hs : srv.sock = netSockets cap) (h0 : ∀ i, w.net.pending i = [])
    (hok : ok (.signal c name enc payload))
    (h : signal srv w c name enc payload = .ok (w', e)) : Notes srv ok cap w w' := by
  have hne : w' = w ∨ (name ≠ [] ∨ payload ≠ []) := by
    unfold signal at h
    split_ifs at h with h1 h2
    · simp only [Except.ok.injEq, Prod.mk.injEq] at h
      exact .inl h.1.symm
    · simp only [Except.ok.injEq, Prod.mk.injEq] at h
      exact .inl h.1.symm
    · right
      by_contra hcon
      push Not at hcon
      apply h1
      rw [hcon.1, hcon.2]; simp
  rcases hne with rfl | hne
  · exact Notes.refl h0
  · rcases signal_ok h with ⟨rfl, _⟩ | h
    · exact Notes.refl h0
    · obtain ⟨h1, _, _, ⟨_, hc, hv, _, hn⟩ | ⟨_, hn, _⟩⟩ := withWriter_net (call := .signal name enc payload true) hs
        (h0 c) (by simp [WriterCall.Panics]) h
      · refine Notes.deliver h0 hc hn (fun i _ => by rw [h1]) (.signal c name enc payload hok hne hv) ?_
        intro _ x hx
        rw [signal_noted, h1]; exact hx
      · exact Notes.same h0 hn (fun i => by rw [h1])

theorem createSession_notes {w w' : World Net υ} {c : ConnId} {info : Option Nat}
    {e : Option Err} (hs : srv.sock = netSockets cap) (h0 : ∀ i, w.net.pending i = [])
    (h : createSession srv w c info = .ok (w', e)) : Notes srv ok cap w w' := by
  have other : ∀ {w1 : World Net υ} {user : υ} {s : Session} {en : Option Err},
      notifySessionCreated srv { w with user := user } c s = .ok (w1, en) →
      w1.conns = w.conns ∧ ((en ≠ none ∧ w1.net = w.net) ∨
        (en = none ∧ ∃ bs, srv.hooks.marshal s = .ok bs ∧ w.net.connected c = true ∧
          w1.net = w.net.deliver c (21 :: bs))) := by
    intro w1 user s en hn
    rcases notifySessionCreated_ok hn with ⟨rfl, he⟩ | ⟨bs, hm, hn⟩
    · exact ⟨rfl, .inl ⟨he, rfl⟩⟩
    · obtain ⟨h1, _, _, ⟨h2, hc, hv, _, hn⟩ | ⟨h2, hn, _⟩⟩ := withWriter_net (w := { w with user := user })
        (call := .sessionCreated bs) hs (h0 c) (by simp [WriterCall.Panics]) hn
      · exact ⟨h1, .inr ⟨h2, bs, hm, hc, hn⟩⟩
      · exact ⟨h1, .inl ⟨h2, hn⟩⟩
  rcases createSession_ok h with ⟨_, rfl, _⟩ | ⟨_, _, rfl, _⟩ | ⟨_, _, _, rfl, _⟩ |
    ⟨_, _, _, user, s, w1, en, _, hn, ⟨er, rfl, rfl, _⟩ | ⟨rfl, _, w2, er, hr, rfl⟩⟩
  · exact Notes.refl h0
  · exact Notes.refl h0
  · exact Notes.refl h0
  · obtain ⟨hc, ⟨_, hn⟩ | ⟨h2, _⟩⟩ := other hn
    · exact Notes.same h0 hn (fun i => by rw [hc])
    · cases h2
  · obtain ⟨hc, ⟨h2, _⟩ | ⟨_, bs, hm, hcon, hn⟩⟩ := other hn
    · exact absurd rfl h2
    · obtain ⟨_, _, rfl, _⟩ := register_ok hr
      refine Notes.deliver (c := c) (b := 21 :: bs) h0 hcon hn ?_ (.created s bs hm) ?_
      · intro i hi
        simp [World.log, setSession, World.upd, hi, hc]
      · intro _ x _
        simp only [World.log, setSession, World.upd, if_true, noted, Told]
        exact ⟨s.info, hm, .inl rfl⟩

theorem session_after_set (w : World Net υ) (c : ConnId) (s : Option Session) (i : ConnId) :
    ((setSession w c s).conns i).session = if i = c then s else (w.conns i).session := by
  simp only [setSession, World.upd]
  split_ifs <;> rfl

theorem closeSession_notes {w w' : World Net υ} {c : ConnId} {e : Option Err} (hs : srv.sock = netSockets cap)
    (h0 : ∀ i, w.net.pending i = []) (h : closeSession srv w c = .ok (w', e)) : Notes srv ok cap w w' := by
  rcases closeSession_ok h with ⟨_, rfl, _⟩ | ⟨_, _, rfl, _⟩ | ⟨_, _, w1, n, hd, hw⟩
  · exact Notes.refl h0
  · exact Notes.refl h0
  · have hnet : w1.net = w.net := deregister_net hd
    have hcon : w1.conns = w.conns := deregister_conns hd
    have hsess : ∀ i, i ≠ c → ((setSession w1 c none).conns i).session = (w.conns i).session := by
      intro i hi
      rw [session_after_set, if_neg hi, hcon]
    obtain ⟨h1, _, _, ⟨_, hc, hv, _, hn⟩ | ⟨_, hn, hno⟩⟩ := withWriter_net (w := setSession w1 c none)
        (call := .sessionClosed) hs (by show w1.net.pending c = []; rw [hnet]; exact h0 c)
        (by simp [WriterCall.Panics]) hw
    · refine Notes.deliver (c := c) (b := [22]) h0 (by rw [← hnet]; exact hc) (by rw [hn]; show w1.net.deliver c _ = _; rw [hnet]; rfl) ?_ .closed ?_
      · intro i hi; rw [h1]; exact hsess i hi
      · intro _ x _
        rw [h1, session_after_set, if_pos rfl]
        simp [noted, Told]
    · have hn' : w'.net = w.net := by rw [hn]; exact hnet
      refine ⟨by rw [hn']; exact h0, by rw [hn']; exact fun _ h => h, fun i => ?_⟩
      refine ⟨[], by rw [hn']; simp, by simp, fun _ => rfl, fun hr hci b hb => ?_⟩
      by_cases hi : i = c
      · subst hi
        exfalso
        apply hno
        refine ⟨?_, trivial, hr.bare.mono (by simp [WriterCall.layout])⟩
        show w1.net.connected i = true
        rw [hnet, ← hn']; exact hci
      · rw [h1, hsess i hi]; exact hb

theorem closeSessions_notes (hs : srv.sock = netSockets cap) {cs : List ConnId} : ∀ {w w' : World Net υ}
    {es : List (Option Err)}, (∀ i, w.net.pending i = []) → closeSessions srv w cs = .ok (w', es) →
    Notes srv ok cap w w' := by
  induction cs with
  | nil =>
    intro w w' es h0 h
    rw [(closeSessions_nil h).1]
    exact Notes.refl h0
  | cons c cs ih =>
    intro w w' es h0 h
    obtain ⟨w1, e, es', h1, h2, _⟩ := closeSessions_cons h
    have hq := closeSession_notes (ok := ok) hs h0 h1
    exact hq.trans (ih hq.pending h2)

theorem unlink_notes {w w' : World Net υ} {c : ConnId} (hs : srv.sock = netSockets cap)
    (h0 : ∀ i, w.net.pending i = []) (h : unlink srv w c = .ok w') : Notes srv ok cap w w' := by
  obtain ⟨w1, n, net, e, hd, hc, rfl⟩ := unlink_ok h
  have hnet : w1.net = w.net := deregister_net hd
  have hcon : w1.conns = w.conns := deregister_conns hd
  rw [hs] at hc
  simp only [netSockets, Except.ok.injEq, Prod.mk.injEq] at hc
  rw [← hc.1]
  refine ⟨?_, ?_, fun i => ⟨[], ?_, by simp, fun _ => rfl, ?_⟩⟩
  · intro i; show w1.net.pending i = []; rw [hnet]; exact h0 i
  · intro i hi
    simp only [World.log] at hi
    split_ifs at hi
    rw [← hnet]; exact hi
  · show w1.net.out i = _; rw [hnet]; simp
  · intro _ hci b hb
    simp only [World.log] at hci
    split_ifs at hci with hic
    show Told srv ((setSession w1 c none).conns i).session b
    rw [session_after_set, if_neg hic, hcon]; exact hb

theorem connClose_notes {w w' : World Net υ} {c : ConnId} (hs : srv.sock = netSockets cap)
    (h0 : ∀ i, w.net.pending i = []) (h : connClose srv w c = .ok w') : Notes srv ok cap w w' := by
  have hd : Notes srv ok cap w (w.upd c fun con => { con with isActive := false }) := by
    refine Notes.same h0 rfl (fun i => ?_)
    simp only [World.upd]; split_ifs with hi
    · subst hi; rfl
    · rfl
  rcases connClose_ok h with ⟨_, rfl⟩ | ⟨_, ⟨ht, h⟩ | ⟨_, rfl⟩⟩
  · exact Notes.refl h0
  · exact hd.trans (unlink_notes hs hd.pending h)
  · exact hd

theorem runApi_notes {w w' : World Net υ} {a : ApiCall} (hs : srv.sock = netSockets cap)
    (h0 : ∀ i, w.net.pending i = []) (hok : ok a) (h : runApi srv w a = .ok w') : Notes srv ok cap w w' := by
  cases a with
  | signal c name enc payload => obtain ⟨b, h⟩ := map_fst_ok h; exact signal_notes hs h0 hok h
  | createSession c info => obtain ⟨b, h⟩ := map_fst_ok h; exact createSession_notes hs h0 h
  | closeSession c => obtain ⟨b, h⟩ := map_fst_ok h; exact closeSession_notes hs h0 h
  | close c => exact connClose_notes hs h0 h
  | srvCloseSession key order =>
    obtain ⟨b, h⟩ := map_fst_ok h
    rcases srvCloseSession_ok h with ⟨_, rfl, _⟩ | ⟨_, _, _, _, _, _, h, _⟩
    · exact Notes.refl h0
    · exact closeSessions_notes hs h0 h

theorem runApis_notes (hs : srv.sock = netSockets cap) {as : List ApiCall} : ∀ {w w' : World Net υ},
    (∀ i, w.net.pending i = []) → (∀ a ∈ as, ok a) → runApis srv w as = .ok w' → Notes srv ok cap w w' := by
  induction as with
  | nil =>
    intro w w' h0 _ h
    simp only [runApis, Except.ok.injEq] at h
    rw [← h]; exact Notes.refl h0
  | cons a as ih =>
    intro w w' h0 ha h
    obtain ⟨w1, h1, h2⟩ := runApis_cons h
    have hq := runApi_notes hs h0 (ha a (by simp)) h1
    exact hq.trans (ih hq.pending (fun x hx => ha x (by simp [hx])) h2)

theorem deregisterHandler_notes {w w' : World Net υ} {c : ConnId} (hs : srv.sock = netSockets cap)
    (h0 : ∀ i, w.net.pending i = []) (h : deregisterHandler srv w c = .ok w') : Notes srv ok cap w w' := by
  obtain ⟨_, w1, h1, _, rfl⟩ := deregisterHandler_ok h
  have upd : ∀ (w : World Net υ) (f : Conn → Conn), (∀ x, (f x).session = x.session) → (∀ i, w.net.pending i = []) →
      Notes srv ok cap w (w.upd c f) := by
    intro w f hf h0
    refine Notes.same h0 rfl (fun i => ?_)
    simp only [World.upd]; split_ifs with hi
    · subst hi; exact hf _
    · rfl
  have key : Notes srv ok cap w w1 := by
    have n1 : Notes srv ok cap w (opsDone w) := Notes.same h0 rfl (fun _ => rfl)
    have n2 := n1.trans (upd (opsDone w) (fun con => { con with tasks := con.tasks - 1 }) (fun _ => rfl) n1.pending)
    rcases deregisterTask_ok h1 with ⟨ha, ht, h1⟩ | ⟨_, rfl⟩
    · exact n2.trans (unlink_notes hs n2.pending h1)
    · exact n2
  exact key.trans (upd w1 _ (fun _ => rfl) key.pending)

theorem disconnect_notes {w w' : World Net υ} {c : ConnId} (hs : srv.sock = netSockets cap)
    (ho : HooksOnly srv.hooks ok)
    (h0 : ∀ i, w.net.pending i = []) (h : disconnect srv w c = .ok w') : Notes srv ok cap w w' := by
  obtain ⟨w1, h1, h2⟩ := disconnect_ok h
  have n1 : Notes srv ok cap w w1 := 
    (Notes.same (w' := releaseMsg w) h0 rfl (fun _ => rfl)).trans (connClose_notes (w := releaseMsg w) hs h0 h1)
  have n2 := runApis_notes (ok := ok)
    (w := { w1.log (.onClientDisconnected c) with user := (srv.hooks.onClientDisconnected w1.user c).1 })
    hs n1.pending (ho.disconnected _ _) h2
  exact n1.trans ((Notes.hook n1.pending (.onClientDisconnected c) _).trans n2)

/-! ## Replies -/

/-- `b` is an answer to a request of type `t` with identifier `id`. -/
def Answers (id : Bytes) (t : UInt8) (b : Bytes) : Prop :=
  id.length = 8 → ∃ v, Grammar b v ∧ v.ident = id ∧ v.msgType ∈ documentedButSessions t

/-- Connection `c` received notifications and then at most one answer to the request, and what it received says what
happened to its session; the others received only notifications. -/
structure Handled (srv : Server Net υ) (ok : ApiCall → Prop) (cap : Option Nat) (c : ConnId) (id : Bytes) (t : UInt8)
    (w w' : World Net υ) : Prop where
  pending : ∀ i, w'.net.pending i = []
  connected : ∀ i, w'.net.connected i = true → w.net.connected i = true
  elsewhere : ∀ i, i ≠ c → NotedAt srv ok cap w w' i
  here : ∃ ns r, w'.net.out c = w.net.out c ++ ns ++ r ∧ (∀ b ∈ ns, Note srv ok b) ∧
    (r = [] ∨ ∃ b, r = [b] ∧ Answers id t b) ∧ (w.net.connected c = false → ns = [] ∧ r = []) ∧
    (Roomy srv cap → w'.net.connected c = true → ∀ b, Told srv (w.conns c).session b →
      Told srv (w'.conns c).session (r.foldl (learned t) (ns.foldl noted b)))

variable {c : ConnId} {id : Bytes} {t : UInt8}

theorem Notes.handled {w w' : World Net υ} (h : Notes srv ok cap w w') : Handled srv ok cap c id t w w' := by
  obtain ⟨ns, h1, h2, h3, h4⟩ := h.out c
  exact ⟨h.pending, h.connected, fun i _ => h.out i, ns, [], by simpa using h1, h2, .inl rfl,
    fun hc => ⟨h3 hc, rfl⟩, h4⟩

theorem Notes.thenHandled {w w' w'' : World Net υ} (h : Notes srv ok cap w w') (h' : Handled srv ok cap c id t w' w'') :
    Handled srv ok cap c id t w w'' := by
  refine ⟨h'.pending, fun i hi => h.connected i (h'.connected i hi),
    fun i hi => NotedAt.trans h.connected h'.connected (h.out i) (h'.elsewhere i hi), ?_⟩
  obtain ⟨l, e, hl, hd, ht⟩ := h.out c
  obtain ⟨ns, r, h1, h2, h3, h4, h5⟩ := h'.here
  refine ⟨l ++ ns, r, by rw [h1, e]; simp, ?_, h3, ?_, ?_⟩
  · intro x hx
    rcases List.mem_append.mp hx with hx | hx
    · exact hl x hx
    · exact h2 x hx
  · intro hc
    obtain ⟨e1, e2⟩ := h4 (by
      cases hc' : w'.net.connected c with
      | false => rfl
      | true => rw [h.connected c hc'] at hc; cases hc)
    exact ⟨by rw [hd hc, e1]; rfl, e2⟩
  · intro hr hc b hb
    rw [List.foldl_append]
    exact h5 hr hc _ (ht hr (h'.connected c hc) b hb)

/-- Nothing more is sent after the answer. -/
theorem Handled.thenSilent {w w' w'' : World Net υ} (h : Handled srv ok cap c id t w w') (h' : Notes srv ok cap w' w'')
    (hq : w''.net.out c = w'.net.out c) : Handled srv ok cap c id t w w'' := by
  refine ⟨h'.pending, fun i hi => h.connected i (h'.connected i hi),
    fun i hi => NotedAt.trans h.connected h'.connected (h.elsewhere i hi) (h'.out i), ?_⟩
  obtain ⟨l, e, hl, hd, ht⟩ := h'.out c
  have : l = [] := by rw [hq] at e; simpa using e
  subst this
  obtain ⟨ns, r, h1, h2, h3, h4, h5⟩ := h.here
  exact ⟨ns, r, by rw [hq, h1], h2, h3, h4, fun hr hc b hb => ht hr hc _ (h5 hr (h'.connected c hc) b hb)⟩

/-- Sending a reply. -/
theorem withWriter_handled {w w1 w' : World Net υ} {call : WriterCall} {e : Option Err}
    (hs : srv.sock = netSockets cap) (h0 : ∀ i, w.net.pending i = []) (hp : ¬ call.Panics) (hn : w1.net = w.net)
    (hsess : ∀ i, i ≠ c → (w1.conns i).session = (w.conns i).session)
    (ha : call.Valid → Answers id t call.layout)
    (hsent : ∀ b, Told srv (w.conns c).session b → Told srv (w1.conns c).session (learned t b call.layout))
    (hmust : (w1.conns c).session = (w.conns c).session ∨
      (call.Valid ∧ (Roomy srv cap → Room cap call.layout.length)))
    (h : withWriter srv w1 c (fun wr s => call.run wr s) = .ok (w', e)) : Handled srv ok cap c id t w w' := by
  obtain ⟨h1, _, _, ⟨_, hc, hv, _, hd⟩ | ⟨_, hd, hno⟩⟩ := withWriter_net hs (by rw [hn]; exact h0 c) hp h
  · rw [hn] at hd hc
    refine ⟨by rw [hd]; exact deliver_pending h0 c _, by rw [hd]; exact fun _ h => h, ?_, ?_⟩
    · intro i hi
      exact ⟨[], by rw [hd, deliver_out]; simp [hi], by simp, fun _ => rfl,
        fun _ _ b hb => by rw [h1, hsess i hi]; exact hb⟩
    · refine ⟨[], [call.layout], by rw [hd, deliver_out]; simp, by simp, .inr ⟨_, rfl, ha hv⟩, ?_, ?_⟩
      · intro h; rw [hc] at h; cases h
      · intro _ _ b hb
        rw [h1]; exact hsent b hb
  · rw [hn] at hd hno
    refine ⟨by rw [hd]; exact h0, by rw [hd]; exact fun _ h => h, ?_, ?_⟩
    · intro i hi
      exact ⟨[], by rw [hd]; simp, by simp, fun _ => rfl, fun _ _ b hb => by rw [h1, hsess i hi]; exact hb⟩
    · refine ⟨[], [], by rw [hd]; simp, by simp, .inl rfl, fun _ => ⟨rfl, rfl⟩, ?_⟩
      intro hr hc b hb
      rw [h1]
      rcases hmust with hm | ⟨hv, hm⟩
      · rw [hm]; exact hb
      · rw [hd] at hc
        exact absurd ⟨hc, hv, hm hr⟩ hno

theorem special_answers (t' : UInt8) (h : t' ∈ ([1, 2, 3, 4, 5] : List UInt8)) (ht : t' ∈ documentedButSessions t) :
    Answers id t (t' :: id) := fun hl => ⟨_, by simpa using Grammar.special t' id [] h hl, rfl, ht⟩

theorem reply_answers {enc : Encoding} {payload : Bytes} (hv : (WriterCall.reply id enc payload).Valid)
    (ht : (if enc = 1 then 192 else if enc = 2 then 193 else 191) ∈ documentedButSessions t) :
    Answers id t (WriterCall.reply id enc payload).layout := by
  intro hl
  simp only [WriterCall.layout, WriterCall.Valid] at *
  by_cases h1 : enc = 1
  · subst h1
    exact ⟨_, by simpa using Grammar.reply 192 id payload (by simp) hl, rfl, by simpa using ht⟩
  · by_cases h2 : enc = 2
    · subst h2
      exact ⟨_, by simpa using Grammar.reply16 0 id payload hl (hv rfl), rfl, by simpa using ht⟩
    · exact ⟨_, by simpa [h1, h2] using Grammar.reply 191 id payload (by simp) hl, rfl, by simpa [h1, h2] using ht⟩

theorem error_answers {code text : Bytes} (hv : (WriterCall.errorReply id code text true).Valid)
    (ht : 0 ∈ documentedButSessions t) : Answers id t (WriterCall.errorReply id code text true).layout := by
  intro hl
  obtain ⟨h1, h2, h3⟩ := hv rfl
  have he : (UInt8.ofNat code.length).toNat = code.length := by
    rw [UInt8.toNat_ofNat']; omega
  exact ⟨_, by simpa [WriterCall.layout] using Grammar.errorReply id code text (UInt8.ofNat code.length) hl he h1, rfl, ht⟩

theorem special_learned (t' : UInt8) (h : t' ∈ ([1, 2, 3, 4, 5] : List UInt8)) (s : Option Bytes) :
    learned t s (t' :: id) = s := by
  simp only [List.mem_cons, List.not_mem_nil, or_false] at h
  unfold learned replyPayload
  rcases h with rfl | rfl | rfl | rfl | rfl <;> rfl

theorem learned_other (h : t ≠ 32) (h' : t ≠ 31) (s : Option Bytes) (b : Bytes) : learned t s b = s := by
  unfold learned
  split <;> simp [h, h']

theorem failMsg_handled {w w1 w' : World Net υ} {m : Msg} {re : ReplyErr}
    (hs : srv.sock = netSockets cap) (h0 : ∀ i, w.net.pending i = []) (hn : w1.net = w.net)
    (hsess : w1.conns = w.conns) (hre : errorFor re = none) (hm : m.identifierBytes = id)
    (ht : specialFor re ∈ documentedButSessions t)
    (h : failMsg srv w1 c m re = .ok w') : Handled srv ok cap c id t w w' := by
  have same : Handled srv ok cap c id t w w1 :=
    (Notes.same (ok := ok) (srv := srv) (cap := cap) h0 hn (fun i => by rw [hsess])).handled
  rcases failMsg_ok h with ⟨_, rfl⟩ | ⟨_, ⟨_, _, _, he, _⟩ | ⟨_, _, _, _, rfl⟩ | ⟨_, _, e, h⟩⟩
  · exact same
  · rw [hre] at he; cases he
  · exact same
  · rw [hm] at h
    refine withWriter_handled (call := .special (specialFor re) id) hs h0 (by simp [WriterCall.Panics]) hn
      (fun i _ => by rw [hsess]) (fun _ => special_answers _ (specialFor_mem re) ht) ?_ (.inl (by rw [hsess])) h
    intro b hb
    rw [hsess]
    show Told srv _ (learned t b (specialFor re :: id))
    rw [special_learned _ (specialFor_mem re)]; exact hb

theorem deregisterHandler_out {w w' : World Net υ} {c : ConnId} (hs : srv.sock = netSockets cap)
    (h : deregisterHandler srv w c = .ok w') (i : ConnId) : w'.net.out i = w.net.out i := by
  obtain ⟨_, w1, h1, _, rfl⟩ := deregisterHandler_ok h
  rcases deregisterTask_ok h1 with ⟨ha, ht, h1⟩ | ⟨_, rfl⟩
  · obtain ⟨w2, n, net, e, hd, hc, rfl⟩ := unlink_ok h1
    have hnet := deregister_net hd
    rw [hs] at hc
    simp only [netSockets, Except.ok.injEq, Prod.mk.injEq] at hc
    rw [← hc.1]
    show w2.net.out i = _
    rw [hnet]; rfl
  · rfl

/-- The end of every handler. -/
theorem Handled.done {w w2 w3 : World Net υ} (hs : srv.sock = netSockets cap)
    (h : Handled srv ok cap c id t w w2) (hd : deregisterHandler srv w2 c = .ok w3) :
    Handled srv ok cap c id t w (releaseMsg w3) :=
  (h.thenSilent (deregisterHandler_notes hs h.pending hd) (deregisterHandler_out hs hd c)).thenSilent
    (Notes.same (deregisterHandler_notes (ok := ok) hs h.pending hd).pending rfl (fun _ => rfl)) rfl

theorem handleSessionRestore_handled {w w' : World Net υ} {m : Msg} (hs : srv.sock = netSockets cap)
    (h0 : ∀ i, w.net.pending i = []) (hm : m.identifierBytes = id) (hl : id.length = 8)
    (h : handleSessionRestore srv w c m = .ok w') : Handled srv ok cap c id 32 w w' := by
  obtain ⟨w2, w3, hk, hd, rfl⟩ := handleSessionRestore_ok h
  refine Handled.done hs ?_ hd
  rcases hk with ⟨_, h⟩ | ⟨_, _, h⟩ | ⟨_, _, _, h⟩ | ⟨_, _, _, h⟩ | ⟨r, _, _, _, _, h⟩ |
    ⟨r, encoded, w1, _, _, hlook, hmar, hr, h⟩
  · exact failMsg_handled (re := .sessionsDisabled) hs h0 rfl rfl rfl hm (by decide) h
  · exact failMsg_handled (re := .maxSessConnsReached) hs h0 rfl rfl rfl hm (by decide) h
  · exact failMsg_handled (w1 := lookedUp srv w (m.payload.data.view m.buf)) (re := .nil)
      hs h0 rfl rfl rfl hm (by decide) h
  · exact failMsg_handled (w1 := lookedUp srv w (m.payload.data.view m.buf)) (re := .sessionNotFound)
      hs h0 rfl rfl rfl hm (by decide) h
  · exact failMsg_handled (w1 := lookedUp srv w (m.payload.data.view m.buf)) (re := .nil)
      hs h0 rfl rfl rfl hm (by decide) h
  · obtain ⟨s, _, hw1, _⟩ := register_ok hr
    have hn : w1.net = w.net := by rw [hw1]; rfl
    have hc1 : w1.conns = (setSession (lookedUp srv w (m.payload.data.view m.buf)) c
      (some (restored srv.hooks (m.payload.data.view m.buf) r))).conns := by rw [hw1]
    obtain ⟨e, h⟩ := fulfillMsg_ok h
    rw [hm] at h
    have hv : (WriterCall.reply id encUtf8 encoded).Valid := by simp [WriterCall.Valid, encUtf8]
    refine withWriter_handled (call := .reply id encUtf8 encoded) hs h0 (by simp [WriterCall.Panics]) hn ?_
      (fun hv => reply_answers hv (by decide)) ?_ (.inr ⟨hv, ?_⟩) h
    · intro i hi
      rw [hc1, session_after_set, if_neg hi]; rfl
    · intro b _
      rw [hc1, session_after_set, if_pos rfl]
      have : learned 32 b (WriterCall.reply id encUtf8 encoded).layout = some encoded := by
        simp [learned, replyPayload, WriterCall.layout, encUtf8, hl]
      rw [this]
      exact ⟨r.info, hmar, .inr rfl⟩
    · intro hr
      refine (hr.found _ _ r encoded hlook hmar).mono ?_
      simp [WriterCall.layout, encUtf8]
      omega

theorem handleSessionClosure_handled {w w' : World Net υ} {m : Msg} (hs : srv.sock = netSockets cap)
    (h0 : ∀ i, w.net.pending i = []) (hm : m.identifierBytes = id) (hl : id.length = 8)
    (h : handleSessionClosure srv w c m = .ok w') : Handled srv ok cap c id 31 w w' := by
  obtain ⟨w2, w3, hk, hd, rfl⟩ := handleSessionClosure_ok h
  refine Handled.done hs ?_ hd
  have main : ∀ {w1 : World Net υ}, w1.net = w.net → (∀ i, i ≠ c → (w1.conns i).session = (w.conns i).session) →
      (w1.conns c).session = none → fulfillMsg srv w1 c m 0 [] = .ok w2 → Handled srv ok cap c id 31 w w2 := by
    intro w1 hn ho hnone h
    obtain ⟨e, h⟩ := fulfillMsg_ok h
    rw [hm] at h
    have hv : (WriterCall.reply id 0 []).Valid := by simp [WriterCall.Valid]
    refine withWriter_handled (call := .reply id 0 []) hs h0 (by simp [WriterCall.Panics]) hn ho
      (fun hv => reply_answers hv (by decide)) ?_ (.inr ⟨hv, ?_⟩) h
    · intro b _
      rw [hnone]
      simp [learned, replyPayload, WriterCall.layout, Told]
    · intro hr
      refine hr.bare.mono ?_
      simp [WriterCall.layout]
      omega
  rcases hk with ⟨_, h⟩ | ⟨_, hnone, h⟩ | ⟨_, _, w1, n, hdr, h⟩
  · exact failMsg_handled (re := .sessionsDisabled) hs h0 rfl rfl rfl hm (by decide) h
  · exact main rfl (fun _ _ => rfl) hnone h
  · refine main (w1 := setSession w1 c none) (show w1.net = w.net from deregister_net hdr) ?_ ?_ h
    · intro i hi
      rw [session_after_set, if_neg hi, deregister_conns hdr]
    · rw [session_after_set, if_pos rfl]

theorem upd_session {w : World Net υ} {f : Conn → Conn} (h : ∀ x, (f x).session = x.session) (i : ConnId) :
    ((w.upd c f).conns i).session = (w.conns i).session := by
  unfold World.upd
  by_cases hi : i = c
  · subst hi; simp [h]
  · simp [hi]

theorem slotTaken_session (w : World Net υ) (i : ConnId) :
    ((slotTaken w c).conns i).session = (w.conns i).session := by
  unfold slotTaken
  exact upd_session (by intro; rfl) i

theorem registered_session (w : World Net υ) (i : ConnId) :
    ((registered w c).conns i).session = (w.conns i).session := by
  unfold registered registerTask
  simp only [World.upd]
  by_cases hi : i = c <;> simp [hi]

theorem requestTypes (h : t ∈ ([127, 128, 129] : List UInt8)) :
    documentedButSessions t = [191, 192, 193, 0, 2, 1] ∧ t ≠ 32 ∧ t ≠ 31 := by
  simp only [List.mem_cons, List.not_mem_nil, or_false] at h
  rcases h with rfl | rfl | rfl <;> decide

theorem handleRequest_handled {w w' : World Net υ} {m : Msg} (hs : srv.sock = netSockets cap)
    (ho : HooksOnly srv.hooks ok) (h0 : ∀ i, w.net.pending i = []) (hm : m.identifierBytes = id)
    (ht : t ∈ ([127, 128, 129] : List UInt8)) (hcl : (srv.hooks.onRequest w.user c m).2.closesMsg = false)
    (h : handleRequest srv w c m = .ok w') : Handled srv ok cap c id t w w' := by
  obtain ⟨w1, w2, w3, hr, hf, hd, rfl⟩ := handleRequest_ok h
  obtain ⟨hdoc, h32, h31⟩ := requestTypes ht
  have hao : ∀ a ∈ (srv.hooks.onRequest w.user c m).2.calls, ok a := ho.request _ _ _
  generalize hout : (srv.hooks.onRequest w.user c m).2 = out at *
  have hm' : afterHook m out = m := by simp [afterHook, hcl]
  rw [hm'] at hf
  have n1 := (Notes.hook (srv := srv) (ok := ok) (cap := cap) h0 (.onRequest c m.ident (m.name.view m.buf)
    m.payload.encoding (m.payload.data.view m.buf)) (srv.hooks.onRequest w.user c m).1).trans
    (runApis_notes (w := { w.log (.onRequest c m.ident (m.name.view m.buf) m.payload.encoding
      (m.payload.data.view m.buf)) with user := (srv.hooks.onRequest w.user c m).1 }) hs h0 hao hr)
  refine Handled.done hs (n1.thenHandled ?_) hd
  have err : ∀ {re : ReplyErr} {code text : Bytes}, errorFor re = some (code, text) →
      failMsg srv w1 c m re = .ok w2 → Handled srv ok cap c id t w1 w2 := by
    intro re code text he hf
    rcases failMsg_ok hf with ⟨_, rfl⟩ | ⟨_, ⟨e, code', text', he', h⟩ | ⟨_, _, _, _, rfl⟩ | ⟨hn, _, e, h⟩⟩
    · exact (Notes.refl n1.pending).handled
    · rw [hm] at h
      exact withWriter_handled (call := .errorReply id code' text' true) hs n1.pending (by simp [WriterCall.Panics]) rfl
        (fun _ _ => rfl) (fun hv => error_answers hv (by rw [hdoc]; decide))
        (fun b hb => by rw [learned_other h32 h31]; exact hb) (.inl rfl) h
    · exact (Notes.refl n1.pending).handled
    · rw [he] at hn; cases hn
  rcases hf with ⟨he, hf⟩ | ⟨he, hf⟩
  · obtain ⟨e, h⟩ := fulfillMsg_ok hf
    rw [hm] at h
    refine withWriter_handled (call := .reply id out.enc out.payload) hs n1.pending (by simp [WriterCall.Panics]) rfl
      (fun _ _ => rfl) (fun hv => reply_answers hv ?_)
      (fun b hb => by rw [learned_other h32 h31]; exact hb) (.inl rfl) h
    rw [hdoc]
    split_ifs <;> decide
  · cases hre : out.err with
    | nil => exact absurd hre he
    | request code text =>
      rw [hre] at hf
      exact err rfl hf
    | requestPtr p =>
      rw [hre] at hf
      cases p with
      | none =>
        rcases failMsg_ok hf with ⟨_, rfl⟩ | ⟨_, ⟨_, _, _, he, _⟩ | ⟨_, _, _, _, rfl⟩ | ⟨_, hn, _, _⟩⟩
        · exact (Notes.refl n1.pending).handled
        · cases he
        · exact (Notes.refl n1.pending).handled
        · exact absurd rfl hn
      | some p =>
        obtain ⟨code, text⟩ := p
        exact err rfl hf
    | maxSessConnsReached | sessionNotFound | sessionsDisabled | other =>
      rw [hre] at hf
      exact failMsg_handled (re := .nil) hs n1.pending rfl rfl rfl hm (by rw [hdoc]; decide) hf

theorem handleSignal_notes {w w' : World Net υ} {m : Msg} (hs : srv.sock = netSockets cap)
    (ho : HooksOnly srv.hooks ok) (h0 : ∀ i, w.net.pending i = [])
    (h : handleSignal srv w c m = .ok w') : Notes srv ok cap w w' := by
  obtain ⟨w1, w2, hr, hd, rfl⟩ := handleSignal_ok h
  have n1 := (Notes.hook (srv := srv) (ok := ok) (cap := cap) h0 (.onSignal c (m.name.view m.buf)
    m.payload.encoding (m.payload.data.view m.buf)) (srv.hooks.onSignal w.user c m).1).trans
    (runApis_notes (w := { w.log (.onSignal c (m.name.view m.buf) m.payload.encoding
      (m.payload.data.view m.buf)) with user := (srv.hooks.onSignal w.user c m).1 }) hs h0 (ho.signal _ _ _) hr)
  have n2 := n1.trans (deregisterHandler_notes hs n1.pending hd)
  exact n2.trans (Notes.same n2.pending rfl (fun _ => rfl))

theorem asks_documented (h : asksReply t) : (1 : UInt8) ∈ documentedButSessions t := by
  unfold asksReply at h
  simp only [List.mem_cons, List.not_mem_nil, or_false] at h
  rcases h with rfl | rfl | rfl | rfl | rfl <;> decide

theorem failMsgShutdown_handled {w w' : World Net υ} {m : Msg} (hs : srv.sock = netSockets cap)
    (h0 : ∀ i, w.net.pending i = []) (hm : m.identifierBytes = id) (ht : asksReply t)
    (h : failMsgShutdown srv w c m = .ok w') : Handled srv ok cap c id t w w' := by
  obtain ⟨net, net', e, hg, hf, rfl⟩ := failMsgShutdown_ok h
  have hw : withWriter srv w c (fun wr s => (WriterCall.special 1 m.identifierBytes).run wr s) =
      .ok ({ w with net := net' }.log (.sent c), e) := by
    unfold withWriter
    rw [hg]
    simp only [bind, Except.bind, WriterCall.run]
    rw [show (1 : UInt8) = MsgReplyShutdown from rfl, hf]
    rfl
  rw [hm] at hw
  refine withWriter_handled (call := .special 1 id) hs h0 (by simp [WriterCall.Panics]) rfl
    (fun _ _ => rfl) (fun _ => special_answers 1 (by decide) (asks_documented ht)) ?_ (.inl rfl) hw
  intro b hb
  show Told srv _ (learned t b (1 :: id))
  rw [special_learned 1 (by decide)]; exact hb

/-- All a message causes on the network. -/
theorem handleMessage_handled {w w' : World Net υ} {m : Msg} (hs : srv.sock = netSockets cap)
    (ho : HooksOnly srv.hooks ok) (h0 : ∀ i, w.net.pending i = [])
    (hid : asksReply m.msgType → m.identifierBytes.length = 8)
    (hcl : (srv.hooks.onRequest w.user c m).2.closesMsg = false)
    (h : handleMessage srv w c m = .ok w') :
    (asksReply m.msgType ∧ Handled srv ok cap c m.identifierBytes m.msgType w w') ∨ Notes srv ok cap w w' := by
  have rel : ∀ {w1 : World Net υ}, Notes srv ok cap w w1 → Notes srv ok cap w (releaseMsg w1) :=
    fun n => n.trans (Notes.same n.pending rfl (fun _ => rfl))
  rcases handleMessage_ok h with ⟨hh, rfl⟩ | ⟨_, w1, b, hr, hb⟩
  · exact .inr (rel (Notes.refl h0))
  · rcases registerHandler_ok hr with ⟨ha, rfl, rfl⟩ | ⟨ha, _, ⟨hsd, hq, rfl, hf⟩ | ⟨hns, rfl, rfl⟩⟩
    · rcases hb with ⟨_, rfl⟩ | ⟨hc, _⟩
      · exact .inr (rel (Notes.refl h0))
      · cases hc
    · rcases hb with ⟨_, rfl⟩ | ⟨hc, _⟩
      · have hq' := (requiresReply_iff m).mp hq
        have n1 : Notes srv ok cap w (slotTaken w c) := by
          exact Notes.same h0 rfl (slotTaken_session w)
        have h2 := n1.thenHandled (failMsgShutdown_handled (id := m.identifierBytes) hs n1.pending rfl hq' hf)
        exact .inl ⟨hq', h2.thenSilent (Notes.same h2.pending rfl (fun _ => rfl)) rfl⟩
      · cases hc
    · rcases hb with ⟨hc, _⟩ | ⟨_, hb⟩
      · cases hc
      · have n1 : Notes srv ok cap w (registered w c) := by
          exact Notes.same h0 rfl (registered_session w)
        rcases hb with ⟨ht, hh⟩ | ⟨ht, hh⟩ | ⟨ht, hh⟩ | ⟨ht, hh⟩ | ⟨_, w2, hd, rfl⟩
        · exact .inr (n1.trans (handleSignal_notes hs ho n1.pending hh))
        · have hm : m.msgType ∈ ([127, 128, 129] : List UInt8) := by
            simpa [MsgRequestBinary, MsgRequestUtf8, MsgRequestUtf16] using ht
          have hq : asksReply m.msgType := by
            unfold asksReply
            simp only [List.mem_cons, List.not_mem_nil, or_false] at hm ⊢
            tauto
          exact .inl ⟨hq, n1.thenHandled (handleRequest_handled hs ho n1.pending rfl hm hcl hh)⟩
        · have hm : m.msgType = 32 := ht
          have hq : asksReply m.msgType := by rw [hm]; decide
          refine .inl ⟨hq, ?_⟩
          rw [hm]
          exact n1.thenHandled (handleSessionRestore_handled hs n1.pending rfl (hid hq) hh)
        · have hm : m.msgType = 31 := ht
          have hq : asksReply m.msgType := by rw [hm]; decide
          refine .inl ⟨hq, ?_⟩
          rw [hm]
          exact n1.thenHandled (handleSessionClosure_handled hs n1.pending rfl (hid hq) hh)
        · exact .inr (rel (n1.trans (deregisterHandler_notes hs n1.pending hd)))

theorem asks_ident {bs : Bytes} {v : View} (hg : Grammar bs v) (ht : asksReply v.msgType) : v.ident.length = 8 := by
  unfold asksReply at ht
  cases hg <;> simp_all

/-- All something received causes on the network. -/
theorem serve_data_handled {w w' : World Net υ} {bs : Bytes} (hs : srv.sock = netSockets cap)
    (ho : HooksOnly srv.hooks ok) (h0 : ∀ i, w.net.pending i = [])
    (hcl : ∀ u i m, (srv.hooks.onRequest u i m).2.closesMsg = false)
    (h : serve srv w c [.data bs] = .ok w') :
    (∃ v, Grammar bs v ∧ asksReply v.msgType ∧ Handled srv ok cap c v.ident v.msgType w w') ∨
    Notes srv ok cap w w' := by
  by_cases hg : ∃ v, Grammar bs v ∧ bs.length ≤ srv.bufferSize.toNat
  · obtain ⟨v, hg, hfit⟩ := hg
    obtain ⟨m, h1, h2, h3, h4, h5⟩ := serve_grammar (srv := srv) (w := w) (c := c) (rest := []) hg hfit
    rw [h5] at h
    obtain ⟨w1, h6, h⟩ := bind_ok h
    simp only [serve, Except.ok.injEq] at h
    subst h
    have et : m.msgType = v.msgType := by rw [← h1]; rfl
    have hid : asksReply v.msgType → m.identifierBytes = v.ident := by
      intro ha
      apply h3
      unfold asksReply at ha
      unfold noIdentTypes
      intro hn
      simp only [List.mem_cons, List.not_mem_nil, or_false] at ha hn
      rcases ha with h | h | h | h | h <;> rw [h] at hn <;> revert hn <;> decide
    rcases handleMessage_handled hs ho h0 (fun ha => by
      rw [et] at ha; rw [hid ha]; exact asks_ident hg ha) (hcl _ _ _) h6 with ⟨ha, h7⟩ | h7
    · rw [et] at ha
      rw [et, hid ha] at h7
      exact .inl ⟨v, hg, ha, h7⟩
    · exact .inr h7
  · rw [serve_malformed (fun hfit ⟨v, hv⟩ => hg ⟨v, hv, hfit⟩)] at h
    exact .inr (disconnect_notes hs ho h0 h)

end Webwire
