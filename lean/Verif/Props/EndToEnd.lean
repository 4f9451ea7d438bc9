import Verif.Spec.EndToEnd
import Verif.Proofs.RequestManager2
import Verif.Props.Reply

/-!
# C58: requests end to end
-/

set_option autoImplicit false

namespace Webwire
open Spec

variable {υ σ : Type}

namespace Spec

/-- What the caller should see of what the handler returned: payload and encoding, or code and text of an `ErrRequest`, or
that there was an internal error. Only for results that can be sent. -/
inductive Result (out : RequestOut) : Outcome → Prop
  | success : out.err = .nil → (out.enc = 2 → out.payload.length % 2 = 0) → Result out (.reply (canonEnc out.enc) out.payload)
  | error (code text : Bytes) : out.err = .request code text → SendableCode code → Result out (.failed code text)
  | errorPtr (code text : Bytes) : out.err = .requestPtr (some (code, text)) → SendableCode code →
      Result out (.failed code text)
  | internal : Internal out.err → Result out .internalError

/-- Steps of goroutines using the request manager. -/
inductive Steps {R : Type} : Req.State R → Req.State R → Prop
  | refl (s : Req.State R) : Steps s s
  | step (s s1 s2 : Req.State R) (l : Req.Label R) : Steps s s1 → Req.Step s1 l s2 → Steps s s2

end Spec

theorem req_ident_length {R : Type} {s : Req.State R} (h : Req.Reachable s) {r : Nat} {q : Req.Request R}
    (hq : s.g.reqs[r]? = some q) : q.ident.length = 8 := by
  have hk := h.idInv.keys q.ident
  have h1 : 0 < (s.g.reqs.map (·.ident)).count q.ident :=
    List.count_pos_iff.mpr (List.mem_map.mpr ⟨q, List.mem_of_getElem? hq, rfl⟩)
  have h2 : q.ident ∈ (Req.draws s.g.log).map Req.le64 := List.count_pos_iff.mp (by omega)
  obtain ⟨id, _, he⟩ := List.mem_map.mp h2
  rw [← he]
  rfl

/-- The run of one call of `Fulfill` or `Fail` for a pending request. -/
theorem req_resolves {R : Type} {s : Req.State R} (h : Req.Reachable s) {r : Nat} {q : Req.Request R}
    (hq : s.g.reqs[r]? = some q) (hp : s.g.pending q.ident = some r) (rep : R) :
    Steps s ⟨(({ s.g.ev [.called s.g.calls q.ident rep] with
        pending := fun k => if k = q.ident then none else s.g.pending k,
        reqs := s.g.reqs.set r { q with chan := some rep } } : Req.G R).ev
          [.delivered s.g.calls r, .returned s.g.calls true]), s.threads⟩ := by
  obtain ⟨q', hq', _, hc⟩ := h.inv.pend _ _ hp
  rw [hq] at hq'
  cases hq'
  obtain ⟨g, ts⟩ := s
  have s1 := Req.Step.call g ts q.ident rep
  have s2 := Req.Step.thread (g.ev [.called g.calls q.ident rep]) (g.ev [.called g.calls q.ident rep]) [] ts
    [.removing g.calls r q.ident rep] (.looking g.calls q.ident rep) false
    (by simp only [Req.act, Req.G.ev]; simp only at hp; rw [hp])
  have s3 := Req.Step.thread (g.ev [.called g.calls q.ident rep]) ((g.ev [.called g.calls q.ident rep]).deregister q.ident) [] ts
    [.sending g.calls r rep] (.removing g.calls r q.ident rep) false rfl
  have s4 := Req.Step.thread ((g.ev [.called g.calls q.ident rep]).deregister q.ident)
    (({ (g.ev [.called g.calls q.ident rep]).deregister q.ident with reqs := g.reqs.set r { q with chan := some rep } } : Req.G R).ev
          [.delivered g.calls r, .returned g.calls true]) [] ts [] (.sending g.calls r rep) false
    (by
      have hq2 : ((g.ev [.called g.calls q.ident rep]).deregister q.ident).reqs[r]? = some q := hq
      simp only [Req.act, hq2, hc]
      rfl)
  exact .step _ _ _ _ (.step _ _ _ _ (.step _ _ _ _ (.step _ _ _ _ (.refl _) s1) s2) s3) s4

/-- Waiting for a request that was resolved. -/
theorem req_got {R : Type} {s : Req.State R} {r : Nat} {q : Req.Request R} {rep : R} (hq : s.g.reqs[r]? = some q)
    (hc : q.chan = some rep) : ∃ s', Steps s s' ∧ .got r rep ∈ s'.g.log := by
  obtain ⟨g, ts⟩ := s
  have s1 := Req.Step.await g ts r (List.getElem?_eq_some_iff.mp hq).1
  have s2 := Req.Step.thread g (({ g with reqs := g.reqs.set r { q with chan := none } } : Req.G R).ev [.got r rep]) [] ts []
    (.awaiting r) false (by simp only at hq; simp [Req.act, hq, hc])
  exact ⟨_, .step _ _ _ _ (.step _ _ _ _ (.refl _) s1) s2, by simp [Req.G.ev]⟩

/-- The client's view of the reply the server sends. -/
theorem client_gets {ident : Bytes} {out : RequestOut} {o : Outcome} (ho : Result out o) :
    ∃ v, ReplyFor ident out v ∧ ∀ (m : Msg) (b : Bytes), Clean m → b.length ≤ m.buf.length → Grammar b v →
      ∃ m' rep, m.readBytes b = .ok (m', true, none) ∧ clientTells m' = some (ident, rep) ∧ outcomeOf rep = o := by
  cases ho with
  | success he h2 =>
    refine ⟨_, .success he h2, fun m b hm hb hg => ?_⟩
    obtain ⟨m', h1, h3, h4, _⟩ := read_grammar hm hb hg
    have ht : m'.msgType = typeByte 191 out.enc := congrArg View.msgType h3
    refine ⟨m', .ok m', h1, ?_, ?_⟩
    · have : m'.ident = ident := congrArg View.ident h3
      unfold clientTells
      rw [if_pos (by rw [ht]; unfold typeByte; split_ifs <;> decide), this]
    · have hp : m'.payload.data.view m'.buf = out.payload := congrArg View.payload h3
      simp only [outcomeOf, hp, h4]
      congr 1
      unfold typeByte canonEnc; split_ifs <;> rfl
  | error code text he hc =>
    refine ⟨_, .error code text he hc, fun m b hm hb hg => ?_⟩
    obtain ⟨m', h1, h3, h4, _⟩ := read_grammar hm hb hg
    have ht : m'.msgType = 0 := congrArg View.msgType h3
    have hi : m'.ident = ident := congrArg View.ident h3
    have hn : m'.name.view m'.buf = code := congrArg View.name h3
    have hp : m'.payload.data.view m'.buf = text := congrArg View.payload h3
    exact ⟨m', _, h1, by unfold clientTells; rw [if_neg (by rw [ht]; decide), if_pos ht, hi, hn, hp], rfl⟩
  | errorPtr code text he hc =>
    refine ⟨_, .errorPtr code text he hc, fun m b hm hb hg => ?_⟩
    obtain ⟨m', h1, h3, h4, _⟩ := read_grammar hm hb hg
    have ht : m'.msgType = 0 := congrArg View.msgType h3
    have hi : m'.ident = ident := congrArg View.ident h3
    have hn : m'.name.view m'.buf = code := congrArg View.name h3
    have hp : m'.payload.data.view m'.buf = text := congrArg View.payload h3
    exact ⟨m', _, h1, by unfold clientTells; rw [if_neg (by rw [ht]; decide), if_pos ht, hi, hn, hp], rfl⟩
  | internal he =>
    refine ⟨_, .internal he, fun m b hm hb hg => ?_⟩
    obtain ⟨m', h1, h3, h4, _⟩ := read_grammar hm hb hg
    have ht : m'.msgType = 2 := congrArg View.msgType h3
    have hi : m'.ident = ident := congrArg View.ident h3
    exact ⟨m', _, h1, by
      unfold clientTells
      rw [if_neg (by rw [ht]; decide), if_neg (by rw [ht]; decide), if_pos ht, hi], rfl⟩

/-- The circumstances on the server: an open connection on the ideal network, no shutdown, and `OnRequest` does not close
its message. -/
structure ServerOpen (srv : Server Net υ) (w : World Net υ) (c : ConnId) : Prop where
  ideal : ideal srv
  clean : ∀ i, w.net.pending i = []
  connected : w.net.connected c = true
  active : (w.conns c).isActive = true
  tasks : 0 ≤ (w.conns c).tasks
  running : w.shutdown = false
  keeps : ∀ u i m, (srv.hooks.onRequest u i m).2.closesMsg = false

/-- C58: a request of the client's request manager, written by `WriteMsgRequest` through any writer, read and handled by the
server, is answered with one message. If the client can hold that message, telling its request manager resolves this
request with exactly what the handler returned, and leaves all other requests as they are. -/
theorem C58_end_to_end
    -- the client: a pending request, any other requests and goroutines
    (s : Req.State Rep) (hs : Req.Reachable s) (r : Nat) (q : Req.Request Rep) (hq : s.g.reqs[r]? = some q)
    (hp : s.g.pending q.ident = some r)
    -- the request is written
    (wr : Writer σ) (st st' : σ) (log : List Event) (name : Bytes) (enc : Encoding) (payload : Bytes) (safe : Bool)
    (hw : writeMsgRequest (observed wr) (st, []) q.ident name enc payload safe = .ok ((st', log), none))
    -- the server handles it
    (srv : Server Net υ) (w w' : World Net υ) (c : ConnId) (hopen : ServerOpen srv w c)
    (hfit : (written log).length ≤ srv.bufferSize.toNat) (h : serve srv w c [.data (written log)] = .ok w') :
    ∃ m, Shows m (typeByte 127 enc) q.ident name (canonEnc enc) payload ∧
      ∀ o, Result (srv.hooks.onRequest w.user c m).2 o → ∃ b, replies (w'.net.out c) = replies (w.net.out c) ++ [b] ∧
        -- the client receives the reply
        ∀ m0 : Msg, Clean m0 → b.length ≤ m0.buf.length →
          ∃ m' rep, m0.readBytes b = .ok (m', true, none) ∧ clientTells m' = some (q.ident, rep) ∧ outcomeOf rep = o ∧
            ∃ s', Steps s s' ∧ s'.g.reqs[r]? = some { q with chan := some rep } ∧ s'.g.pending q.ident = none ∧
              (∀ r', r' ≠ r → s'.g.reqs[r']? = s.g.reqs[r']?) ∧ (∀ k, k ≠ q.ident → s'.g.pending k = s.g.pending k) ∧
              s'.threads = s.threads ∧ .returned s.g.calls true ∈ s'.g.log ∧
              -- whoever waits for it gets it
              ∃ s'', Steps s' s'' ∧ .got r rep ∈ s''.g.log := by
  have hid := req_ident_length hs hq
  obtain ⟨hb, hwr⟩ := request_accepted _ _ _ _ _ _ _ _ _ hw
  have hg := request_grammar q.ident name payload enc safe hid hb
  rw [← hwr] at hg
  have ht : requestType enc ∈ ([127, 128, 129] : List UInt8) := by unfold requestType; split_ifs <;> decide
  have hasked : Asked srv w c (written log) { msgType := requestType enc, ident := q.ident, name := name, payload := payload } :=
    { ideal := hopen.ideal, clean := hopen.clean, connected := hopen.connected, active := hopen.active, tasks := hopen.tasks
      grammar := hg, fits := hfit, keeps := hopen.keeps
      asks := by
        simp only [List.mem_cons, List.not_mem_nil, or_false] at ht ⊢
        exact .inr (.inr ht) }
  obtain ⟨m, h1, h2, h3⟩ := C23_result_to_reply srv w w' c _ _ hasked ht hopen.running h
  have he : documentedEncoding (requestType enc) = canonEnc enc := by unfold requestType canonEnc; split_ifs <;> rfl
  refine ⟨m, by rw [← requestType_eq, ← he]; exact h2, fun o ho => ?_⟩
  obtain ⟨v, hv, hc⟩ := client_gets (ident := q.ident) ho
  obtain ⟨b, hgb, hout⟩ := h3 v hv
  refine ⟨b, hout, fun m0 hm0 hb0 => ?_⟩
  obtain ⟨m', rep, e1, e2, e3⟩ := hc m0 b hm0 hb0 hgb
  have hlt := (List.getElem?_eq_some_iff.mp hq).1
  have hget : (s.g.reqs.set r { q with chan := some rep })[r]? = some { q with chan := some rep } := by simp [hlt]
  refine ⟨m', rep, e1, e2, e3, _, req_resolves hs hq hp rep, hget, ?_, ?_, ?_, rfl, ?_, ?_⟩
  · simp [Req.G.ev]
  · intro r' hr'; simp [Req.G.ev, Ne.symm hr']
  · intro k hk; simp [Req.G.ev, hk]
  · simp [Req.G.ev]
  · exact req_got hget rfl

/-- C58, non-vacuity: two pending requests; the second is sent to the server of the examples, which answers with the payload
`[1, 0]` in UTF16. -/
example : (∃ s : Req.State Rep, Req.Reachable s ∧ s.g.reqs = [⟨Req.le64 1, none⟩, ⟨Req.le64 2, none⟩] ∧
      s.g.pending (Req.le64 2) = some 1) ∧
    (∃ log w', writeMsgRequest (observed pipe) (([], []), []) (Req.le64 2) [97] 0 [] true =
        .ok ((([], [[127, 2,0,0,0,0,0,0,0, 1, 97]]), log), none) ∧
      serve (exServer { enc := 2, payload := [1, 0] }) exWorld 1 [.data (written log)] = .ok w' ∧
      w'.net.out 1 = [[193, 2,0,0,0,0,0,0,0, 0, 1, 0]]) ∧
    ServerOpen (exServer { enc := 2, payload := [1, 0] }) exWorld 1 ∧
    Result { enc := 2, payload := [1, 0] } (.reply 2 [1, 0]) := by
  refine ⟨?_, ⟨_, _, rfl, rfl, rfl⟩, ⟨rfl, fun _ => rfl, rfl, rfl, by decide, rfl, fun _ _ _ => rfl⟩, .success rfl (by decide)⟩
  have h : ∃ s, Req.play (fun _ _ => true) ({} : Req.State Rep) [.create, .go 0, .create, .go 0] = some s ∧
      s.g.reqs = [⟨Req.le64 1, none⟩, ⟨Req.le64 2, none⟩] ∧ s.g.pending (Req.le64 2) = some 1 := ⟨_, rfl, rfl, rfl⟩
  obtain ⟨s, hp, h1, h2⟩ := h
  exact ⟨s, Req.play_reachable (fun _ _ _ => trivial) _ .start hp, h1, h2⟩

/-- C58, the other direction: whatever else happens on the client at the same time, `AwaitReply` for a request returns only
what a received message with the identifier of the request says. If there is one such message, it is what that says. -/
theorem C58_nothing_else (s : Req.State Rep) (hs : Req.Reachable s) (received : List Msg)
    (hcalls : ∀ c k rep, .called c k rep ∈ s.g.log → ∃ m ∈ received, clientTells m = some (k, rep))
    (r : Nat) (rep : Rep) (hg : .got r rep ∈ s.g.log) :
    ∃ q, s.g.reqs[r]? = some q ∧ ∃ m ∈ received, m.ident = q.ident ∧ clientTells m = some (q.ident, rep) := by
  obtain ⟨q, c, hq, hd, hc⟩ := hs.inv.got r rep hg
  obtain ⟨m, hm, ht⟩ := hcalls c _ rep hc
  refine ⟨q, hq, m, hm, ?_, ht⟩
  unfold clientTells at ht
  split_ifs at ht <;> simp only [Option.some.injEq, Prod.mk.injEq] at ht <;> exact ht.1

/-- C58, non-vacuity: a reply is received, the request manager is told, somebody waiting gets it. -/
example : ∃ m, (newMessage 32).readBytes [191, 1,0,0,0,0,0,0,0, 7] = .ok (m, true, none) ∧
    ∃ s : Req.State Rep, Req.Reachable s ∧ .got 0 (.ok m) ∈ s.g.log ∧
      ∀ c k rep, .called c k rep ∈ s.g.log → ∃ m' ∈ [m], clientTells m' = some (k, rep) := by
  refine ⟨_, rfl, ?_⟩
  generalize hm : (Msg.mk _ _ _ _ _ _ _ _) = m
  have ht : clientTells m = some (Req.le64 1, .ok m) := by subst hm; rfl
  have h : ∃ s, Req.play (fun _ _ => true) ({} : Req.State Rep)
      [.create, .go 0, .await 0, .call (Req.le64 1) (.ok m), .go 0, .go 0, .go 0, .go 0] = some s ∧
      s.g.log = [.drew 1, .created 0, .called 0 (Req.le64 1) (.ok m), .delivered 0 0, .returned 0 true, .got 0 (.ok m)] :=
    ⟨_, rfl, rfl⟩
  obtain ⟨s, hp, hl⟩ := h
  refine ⟨s, Req.play_reachable (fun _ _ _ => trivial) _ .start hp, by rw [hl]; simp, ?_⟩
  intro c k rep hc
  rw [hl] at hc
  simp at hc
  obtain ⟨rfl, rfl, rfl⟩ := hc
  exact ⟨m, by simp, ht⟩

end Webwire
