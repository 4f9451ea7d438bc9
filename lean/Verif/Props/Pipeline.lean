import Verif.Props.EndToEnd

/-!
# C75: pipelined requests each get their own answer

Any number of requests are sent on one connection before any of them is answered; the client takes the replies in
any order.
-/

set_option autoImplicit false

namespace Webwire
open Spec

variable {υ : Type}

namespace Spec

/-- A request of the client: its number and data in the request manager, what it asks, and the bytes sent for it. -/
structure Sending where
  num : Nat
  req : Req.Request Rep
  name : Bytes
  enc : Encoding
  payload : Bytes
  bytes : Bytes

/-- The bytes are what `WriteMsgRequest` wrote, through some writer. -/
def Sending.Written (x : Sending) : Prop :=
  ∃ (σ : Type) (wr : Writer σ) (st st' : σ) (log : List Event) (safe : Bool),
    writeMsgRequest (observed wr) (st, []) x.req.ident x.name x.enc x.payload safe = .ok ((st', log), none) ∧
    written log = x.bytes

/-- The request is pending in the request manager. -/
def Sending.Pending (s : Req.State Rep) (x : Sending) : Prop :=
  s.g.reqs[x.num]? = some x.req ∧ s.g.pending x.req.ident = some x.num

/-- `o` is what a handler returned for a message that says what the request asked. -/
def Sending.Handled (srv : Server Net υ) (c : ConnId) (x : Sending) (o : Outcome) : Prop :=
  ∃ u m, Shows m (typeByte 127 x.enc) x.req.ident x.name (canonEnc x.enc) x.payload ∧
    Result (srv.hooks.onRequest u c m).2 o

/-- `b` is a message that tells the client's request manager that this request had outcome `o`. -/
def Sending.Answers (x : Sending) (b : Bytes) (o : Outcome) : Prop :=
  ∀ m0 : Msg, Clean m0 → b.length ≤ m0.buf.length →
    ∃ m rep, m0.readBytes b = .ok (m, true, none) ∧ clientTells m = some (x.req.ident, rep) ∧ outcomeOf rep = o

end Spec

/-- One request is handled and answered; the connection is still open afterwards if it is active. -/
private theorem one_handled {srv : Server Net υ} {w w'' : World Net υ} {c : ConnId} (hopen : ServerOpen srv w c)
    (x : Sending) (hid : x.req.ident.length = 8) (hw : x.Written) (hfit : x.bytes.length ≤ srv.bufferSize.toNat)
    (hres : ∀ u m, ∃ o, Result (srv.hooks.onRequest u c m).2 o) (rest : List Incoming)
    (h : serve srv w c (.data x.bytes :: rest) = .ok w'') (hact : (w''.conns c).isActive = true) :
    ∃ w' b o, serve srv w' c rest = .ok w'' ∧ ServerOpen srv w' c ∧
      replies (w'.net.out c) = replies (w.net.out c) ++ [b] ∧ x.Handled srv c o ∧ x.Answers b o := by
  obtain ⟨σ, wr, st, st', log, safe, hwr, hb⟩ := hw
  obtain ⟨hbad, hwr⟩ := request_accepted _ _ _ _ _ _ _ _ _ hwr
  have hg := request_grammar x.req.ident x.name x.payload x.enc safe hid hbad
  rw [← hwr, hb] at hg
  have ht : requestType x.enc ∈ ([127, 128, 129] : List UInt8) := by unfold requestType; split_ifs <;> decide
  obtain ⟨m, w1, h5, h6, h7⟩ := serve_split hg hfit h
  have hasked : Asked srv w c x.bytes { msgType := requestType x.enc, ident := x.req.ident, name := x.name, payload := x.payload } :=
    { ideal := hopen.ideal, clean := hopen.clean, connected := hopen.connected, active := hopen.active, tasks := hopen.tasks
      grammar := hg, fits := hfit, keeps := hopen.keeps
      asks := by
        simp only [List.mem_cons, List.not_mem_nil, or_false] at ht ⊢
        exact .inr (.inr ht) }
  obtain ⟨m1, _, h2, h3⟩ := C23_result_to_reply srv w w1 c _ _ hasked ht hopen.running h6
  have he : documentedEncoding (requestType x.enc) = canonEnc x.enc := by unfold requestType canonEnc; split_ifs <;> rfl
  obtain ⟨o, ho⟩ := hres w.user m1
  obtain ⟨v, hv, hc⟩ := client_gets (ident := x.req.ident) ho
  obtain ⟨b, hgb, hout⟩ := h3 v hv
  have hbk := handleMessage_back hopen.running h5
  have F := connectedFrame (srv := srv) (cap := none) hopen.ideal c
  have hact1 := (F.serve h7).1 hact
  refine ⟨w1, b, o, h7, ?_, hout, ⟨w.user, m1, by rw [← requestType_eq, ← he]; exact h2, ho⟩, ?_⟩
  · exact
      { ideal := hopen.ideal
        clean := by
          obtain ⟨l, _, r⟩ := handleMessage_replied hopen.ideal hopen.clean hopen.connected hopen.tasks (hopen.keeps _ _ _) h5
          exact r.pending
        connected := (F.handleMessage (fun h => by cases h) h5).2 hact1 hopen.connected
        active := hact1
        tasks := by rw [hbk.tasks]; exact hopen.tasks
        running := by rw [hbk.shutdown]; exact hopen.running
        keeps := hopen.keeps }
  · intro m0 hm0 hb0
    obtain ⟨m', rep, e1, e2, e3⟩ := hc m0 b hm0 hb0 hgb
    exact ⟨m', rep, e1, e2, e3⟩

/-- The server's side: as many replies as requests, in order. -/
private theorem all_handled {srv : Server Net υ} {c : ConnId} (hres : ∀ u m, ∃ o, Result (srv.hooks.onRequest u c m).2 o)
    (xs : List Sending) : ∀ {w w' : World Net υ}, ServerOpen srv w c →
    (∀ x ∈ xs, x.req.ident.length = 8 ∧ x.Written ∧ x.bytes.length ≤ srv.bufferSize.toNat) →
    serve srv w c (xs.map fun x => .data x.bytes) = .ok w' → (w'.conns c).isActive = true →
    ∃ bs, replies (w'.net.out c) = replies (w.net.out c) ++ bs ∧
      List.Forall₂ (fun x b => ∃ o, x.Handled srv c o ∧ x.Answers b o) xs bs := by
  induction xs with
  | nil =>
    intro w w' _ _ h _
    simp only [List.map_nil, serve, Except.ok.injEq] at h
    subst h
    exact ⟨[], by simp, .nil⟩
  | cons x xs ih =>
    intro w w' hopen hall h hact
    rw [List.map_cons] at h
    obtain ⟨hid, hw, hfit⟩ := hall x (by simp)
    obtain ⟨w1, b, o, h1, ho1, hr, hh, ha⟩ := one_handled hopen x hid hw hfit hres _ h hact
    obtain ⟨bs, e, hf⟩ := ih ho1 (fun y hy => hall y (by simp [hy])) h1 hact
    exact ⟨b :: bs, by rw [e, hr]; simp, .cons ⟨o, hh, ha⟩ hf⟩

private theorem Steps.trans' {R : Type} {s s1 s2 : Req.State R} (h : Steps s s1) (h' : Steps s1 s2) : Steps s s2 := by
  induction h' with
  | refl => exact h
  | step s3 s4 l _ hs ih => exact .step _ _ _ l ih hs

private theorem Steps.reachable {R : Type} {s s1 : Req.State R} (h : Steps s s1) (hr : Req.Reachable s) :
    Req.Reachable s1 := by
  induction h with
  | refl => exact hr
  | step s3 s4 l _ hs ih => exact .step _ l _ ih trivial hs

/-- The client's side: telling the request manager about replies to different pending requests resolves them all. -/
private theorem all_resolved (l : List (Sending × Rep)) : ∀ {s : Req.State Rep}, Req.Reachable s →
    (∀ p ∈ l, p.1.Pending s) → (l.map fun p => p.1.num).Nodup →
    ∃ s', Steps s s' ∧ s'.threads = s.threads ∧
      (∀ p ∈ l, s'.g.reqs[p.1.num]? = some { p.1.req with chan := some p.2 } ∧ s'.g.pending p.1.req.ident = none) ∧
      (∀ r, r ∉ l.map (fun p => p.1.num) → s'.g.reqs[r]? = s.g.reqs[r]?) ∧
      (∀ k, k ∉ l.map (fun p => p.1.req.ident) → s'.g.pending k = s.g.pending k) := by
  induction l with
  | nil => intro s _ _ _; exact ⟨s, .refl s, rfl, by simp, by simp, by simp⟩
  | cons p l ih =>
    intro s hs hp hn
    obtain ⟨hq, hpend⟩ := hp p (by simp)
    rw [List.map_cons, List.nodup_cons] at hn
    have h1 := req_resolves hs hq hpend p.2
    generalize hs1 : (Req.State.mk _ _ : Req.State Rep) = s1 at h1
    have e1 : s1.g.reqs = s.g.reqs.set p.1.num { p.1.req with chan := some p.2 } := by rw [← hs1]; rfl
    have e2 : s1.g.pending = fun k => if k = p.1.req.ident then none else s.g.pending k := by rw [← hs1]; rfl
    have e3 : s1.threads = s.threads := by rw [← hs1]
    have hlt := (List.getElem?_eq_some_iff.mp hq).1
    have hp' : ∀ q ∈ l, q.1.Pending s1 := by
      intro q hql
      obtain ⟨a, b⟩ := hp q (by simp [hql])
      have hne : p.1.num ≠ q.1.num := fun h => hn.1 (List.mem_map.mpr ⟨q, hql, h.symm⟩)
      refine ⟨?_, ?_⟩
      · rw [e1, List.getElem?_set_ne hne]; exact a
      · rw [e2]
        simp only
        rw [if_neg]
        · exact b
        · intro h
          rw [h, hpend] at b
          exact hne (by simpa using b)
    obtain ⟨s', t1, t2, t3, t4, t5⟩ := ih (Steps.reachable h1 hs) hp' hn.2
    have hni : p.1.req.ident ∉ l.map (fun q => q.1.req.ident) := by
      intro hm
      obtain ⟨q, hql, hqi⟩ := List.mem_map.mp hm
      have b := (hp q (by simp [hql])).2
      rw [hqi, hpend] at b
      exact hn.1 (List.mem_map.mpr ⟨q, hql, by simpa using b.symm⟩)
    refine ⟨s', Steps.trans' h1 t1, t2.trans e3, ?_, ?_, ?_⟩
    · intro q hq'
      rcases List.mem_cons.mp hq' with rfl | hq'
      · refine ⟨?_, ?_⟩
        · rw [t4 _ hn.1, e1]; simp [hlt]
        · rw [t5 _ hni, e2]; simp
      · exact t3 q hq'
    · intro r hr
      simp only [List.map_cons, List.mem_cons, not_or] at hr
      rw [t4 r hr.2, e1, List.getElem?_set_ne (Ne.symm hr.1)]
    · intro k hk
      simp only [List.map_cons, List.mem_cons, not_or] at hk
      rw [t5 k hk.2, e2]; simp [hk.1]

/-- **C75**: any number of pending requests of a client, written one after the other on a connection that stays open, get
as many replies, in their order; and when the client takes the replies *in any order* (`order`), telling its request manager of
each, every request is resolved with what the handler returned for it, not for another; whoever waits for it gets it; all
other requests are as before. -/
theorem C75_pipelined
    (s : Req.State Rep) (hs : Req.Reachable s) (xs : List Sending) (hp : ∀ x ∈ xs, x.Pending s)
    (hdiff : (xs.map (·.num)).Nodup) (hw : ∀ x ∈ xs, x.Written)
    (srv : Server Net υ) (w w' : World Net υ) (c : ConnId) (hopen : ServerOpen srv w c)
    (hfit : ∀ x ∈ xs, x.bytes.length ≤ srv.bufferSize.toNat)
    (hres : ∀ u m, ∃ o, Result (srv.hooks.onRequest u c m).2 o)
    (h : serve srv w c (xs.map fun x => .data x.bytes) = .ok w') (hact : (w'.conns c).isActive = true) :
    ∃ bs, replies (w'.net.out c) = replies (w.net.out c) ++ bs ∧ bs.length = xs.length ∧
      ∀ (m0 : Msg) (order : List Bytes), Clean m0 → order.Perm bs → (∀ b ∈ order, b.length ≤ m0.buf.length) →
        ∃ told : List (Bytes × Rep),
          -- what the client tells its request manager, in the order it takes the replies
          List.Forall₂ (fun b t => ∃ m, m0.readBytes b = .ok (m, true, none) ∧ clientTells m = some t) order told ∧
          ∃ s', Steps s s' ∧ s'.threads = s.threads ∧
            (∀ x ∈ xs, ∃ o rep, x.Handled srv c o ∧ outcomeOf rep = o ∧ (x.req.ident, rep) ∈ told ∧
              s'.g.reqs[x.num]? = some { x.req with chan := some rep } ∧ s'.g.pending x.req.ident = none ∧
              ∃ s'', Steps s' s'' ∧ .got x.num rep ∈ s''.g.log) ∧
            (∀ r, r ∉ xs.map (·.num) → s'.g.reqs[r]? = s.g.reqs[r]?) ∧
            (∀ k, k ∉ xs.map (·.req.ident) → s'.g.pending k = s.g.pending k) := by
  obtain ⟨bs, e, hf⟩ := all_handled hres xs hopen
    (fun x hx => ⟨req_ident_length hs (hp x hx).1, hw x hx, hfit x hx⟩) h hact
  refine ⟨bs, e, hf.length_eq.symm, ?_⟩
  intro m0 order hm0 hperm hlen
  -- the requests in the order the replies are taken
  have hsorted : ∃ ys : List Sending, ys.Perm xs ∧
      List.Forall₂ (fun x b => ∃ o, x.Handled srv c o ∧ x.Answers b o) ys order := by
    clear hlen e
    have key : ∀ {as bs' : List Bytes}, as.Perm bs' → ∀ {zs : List Sending},
        List.Forall₂ (fun x b => ∃ o, x.Handled srv c o ∧ x.Answers b o) zs as →
        ∃ ys : List Sending, ys.Perm zs ∧ List.Forall₂ (fun x b => ∃ o, x.Handled srv c o ∧ x.Answers b o) ys bs' := by
      intro as bs' hp
      induction hp with
      | nil => intro zs hz; cases hz; exact ⟨[], .refl _, .nil⟩
      | cons a _ ih =>
        intro zs hz
        cases hz with
        | cons h1 h2 =>
          obtain ⟨ys, p, f⟩ := ih h2
          exact ⟨_ :: ys, p.cons _, .cons h1 f⟩
      | swap a b l =>
        intro zs hz
        cases hz with
        | cons h1 h2 => cases h2 with
          | cons h2 h3 => exact ⟨_ :: _ :: _, .swap _ _ _, .cons h2 (.cons h1 h3)⟩
      | trans _ _ ih1 ih2 =>
        intro zs hz
        obtain ⟨ys, p, f⟩ := ih1 hz
        obtain ⟨ys', p', f'⟩ := ih2 f
        exact ⟨ys', p'.trans p, f'⟩
    exact key hperm.symm hf
  obtain ⟨ys, hyp, hyf⟩ := hsorted
  -- what is told
  have htold : ∃ l : List (Sending × Rep), l.map (·.1) = ys ∧
      List.Forall₂ (fun b (p : Sending × Rep) => ∃ m, m0.readBytes b = .ok (m, true, none) ∧
        clientTells m = some (p.1.req.ident, p.2)) order l ∧
      ∀ p ∈ l, p.1.Handled srv c (outcomeOf p.2) := by
    clear hperm hyp
    induction hyf with
    | nil => exact ⟨[], rfl, .nil, by simp⟩
    | cons h1 _ ih =>
      obtain ⟨o, ho, hans⟩ := h1
      obtain ⟨m, rep, r1, r2, r3⟩ := hans m0 hm0 (hlen _ (by simp))
      obtain ⟨l, l1, l2, l3⟩ := ih (fun b hb => hlen b (by simp [hb]))
      refine ⟨(_, rep) :: l, by rw [List.map_cons, l1], .cons ⟨m, r1, r2⟩ l2, ?_⟩
      intro p hp'
      rcases List.mem_cons.mp hp' with rfl | hp'
      · simp only; rw [r3]; exact ho
      · exact l3 p hp'
  obtain ⟨l, l1, l2, l3⟩ := htold
  have hmem : ∀ p ∈ l, p.1 ∈ xs := fun p hpl =>
    (hyp.mem_iff).mp (by rw [← l1]; exact List.mem_map.mpr ⟨p, hpl, rfl⟩)
  have hnums : (l.map fun p => p.1.num).Perm (xs.map (·.num)) := by
    have : l.map (fun p => p.1.num) = ys.map (·.num) := by rw [← l1, List.map_map]; rfl
    rw [this]; exact hyp.map _
  have hids : (l.map fun p => p.1.req.ident).Perm (xs.map (·.req.ident)) := by
    have : l.map (fun p => p.1.req.ident) = ys.map (·.req.ident) := by rw [← l1, List.map_map]; rfl
    rw [this]; exact hyp.map _
  obtain ⟨s', t1, t2, t3, t4, t5⟩ := all_resolved l hs (fun p hpl => hp _ (hmem p hpl)) (hnums.nodup_iff.mpr hdiff)
  refine ⟨l.map fun p => (p.1.req.ident, p.2), ?_, s', t1, t2, ?_, ?_, ?_⟩
  · exact List.forall₂_map_right_iff.mpr l2
  · intro x hx
    have : x ∈ l.map (·.1) := by rw [l1]; exact hyp.mem_iff.mpr hx
    obtain ⟨p, hpl, rfl⟩ := List.mem_map.mp this
    obtain ⟨a, b⟩ := t3 p hpl
    exact ⟨_, p.2, l3 p hpl, rfl, List.mem_map.mpr ⟨p, hpl, rfl⟩, a, b, req_got a rfl⟩
  · intro r hr
    exact t4 r (fun hm => hr (hnums.mem_iff.mp hm))
  · intro k hk
    exact t5 k (fun hm => hk (hids.mem_iff.mp hm))

/-- C75, non-vacuity: two pending requests, both sent before either is answered, on the connection of the examples, which stays
open; both are answered. -/
example : (∃ s : Req.State Rep, Req.Reachable s ∧ s.g.reqs = [⟨Req.le64 1, none⟩, ⟨Req.le64 2, none⟩] ∧
      s.g.pending (Req.le64 1) = some 0 ∧ s.g.pending (Req.le64 2) = some 1) ∧
    Sending.Written ⟨0, ⟨Req.le64 1, none⟩, [98], 0, [], [127, 1,0,0,0,0,0,0,0, 1, 98]⟩ ∧
    Sending.Written ⟨1, ⟨Req.le64 2, none⟩, [97], 0, [], [127, 2,0,0,0,0,0,0,0, 1, 97]⟩ ∧
    (∃ w', serve (exServer { enc := 2, payload := [1, 0] }) exWorld 1
        [.data [127, 1,0,0,0,0,0,0,0, 1, 98], .data [127, 2,0,0,0,0,0,0,0, 1, 97]] = .ok w' ∧
      (w'.conns 1).isActive = true ∧
      w'.net.out 1 = [[193, 1,0,0,0,0,0,0,0, 0, 1, 0], [193, 2,0,0,0,0,0,0,0, 0, 1, 0]]) ∧
    ServerOpen (exServer { enc := 2, payload := [1, 0] }) exWorld 1 ∧
    (∀ u m, ∃ o, Result ((exServer { enc := 2, payload := [1, 0] }).hooks.onRequest u 1 m).2 o) := by
  refine ⟨?_, ⟨_, pipe, ([], []), _, _, true, rfl, rfl⟩, ⟨_, pipe, ([], []), _, _, true, rfl, rfl⟩, ⟨_, rfl, rfl, rfl⟩,
    ⟨rfl, fun _ => rfl, rfl, rfl, by decide, rfl, fun _ _ _ => rfl⟩, fun _ _ => ⟨_, .success rfl (by simp [exServer, exHooks])⟩⟩
  have h : ∃ s, Req.play (fun _ _ => true) ({} : Req.State Rep) [.create, .go 0, .create, .go 0] = some s ∧
      s.g.reqs = [⟨Req.le64 1, none⟩, ⟨Req.le64 2, none⟩] ∧ s.g.pending (Req.le64 1) = some 0 ∧
      s.g.pending (Req.le64 2) = some 1 := ⟨_, rfl, rfl, rfl, rfl⟩
  obtain ⟨s, hp, h1, h2, h3⟩ := h
  exact ⟨s, Req.play_reachable (fun _ _ _ => trivial) _ .start hp, h1, h2, h3⟩

end Webwire
