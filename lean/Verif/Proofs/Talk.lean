import Verif.Proofs.Client

/-! Helper lemmas: conversations. -/

set_option autoImplicit false

namespace Webwire
open Spec

variable {υ : Type} {srv : Server Net υ} {cap : Option Nat} {ok : ApiCall → Prop} {id : Bytes} {t : UInt8}

theorem grammar_unique {bs : Bytes} {v v' : View} (h : Grammar bs v) (h' : Grammar bs v') : v = v' := by
  have := decode_of_grammar h
  rw [decode_of_grammar h'] at this
  exact (Option.some.inj this).symm

theorem mind_append (l l' : List Obs) : mind (l ++ l') = l'.foldl Mind.sees (mind l) := by
  unfold mind; rw [List.foldl_append]

theorem note_head {b : Bytes} (h : Note srv ok b) : ∃ x rest, b = x :: rest ∧ x ∈ ([21, 22, 63, 64, 65] : List UInt8) := by
  cases h with
  | created s bs _ => exact ⟨21, bs, rfl, by simp⟩
  | closed => exact ⟨22, [], rfl, by simp⟩
  | signal c name enc payload _ _ _ =>
    refine ⟨_, _, rfl, ?_⟩
    split_ifs <;> simp

theorem note_not_reply {b : Bytes} (h : Note srv ok b) : ¬ IsReply b := by
  obtain ⟨x, rest, rfl, hx⟩ := note_head h
  rintro ⟨t, r, he, ht⟩
  cases he
  simp only [List.mem_cons, List.not_mem_nil, or_false] at hx ht
  rcases hx with rfl | rfl | rfl | rfl | rfl <;> revert ht <;> decide

theorem mind_notes {ns : List Bytes} : ∀ {l : List Obs}, (∀ b ∈ ns, Note srv ok b) →
    mind (l ++ ns.map .got) = { asked := (mind l).asked, session := ns.foldl noted (mind l).session } := by
  induction ns with
  | nil => intro l _; simp
  | cons b ns ih =>
    intro l h
    have e : l ++ (b :: ns).map Obs.got = (l ++ [.got b]) ++ ns.map .got := by simp
    rw [e, ih (fun x hx => h x (by simp [hx])), mind_append]
    simp only [List.foldl_cons, List.foldl_nil, Mind.sees, Mind.gets]
    rw [if_neg (note_not_reply (h b (by simp)))]

theorem documented_reply {t' : UInt8} (h : t' ∈ documentedButSessions t) :
    t' ∈ ([0, 1, 2, 3, 4, 5, 191, 192, 193] : List UInt8) := by
  unfold documentedButSessions at h
  split_ifs at h <;> simp only [List.mem_cons, List.not_mem_nil, or_false] at h ⊢ <;> tauto

theorem reply_ident {b : Bytes} {v : View} (hg : Grammar b v)
    (ht : v.msgType ∈ ([0, 1, 2, 3, 4, 5, 191, 192, 193] : List UInt8)) :
    IsReply b ∧ answeredId b = v.ident ∧ v.ident.length = 8 := by
  have hb := byteAt_of_grammar hg
  have key : ∀ (x : UInt8) (id rest : Bytes), id.length = 8 → answeredId (x :: (id ++ rest)) = id := by
    intro x id rest h
    simp [answeredId, ← h]
  cases hg with
  | special t id ig h1 h2 => exact ⟨⟨_, _, rfl, ht⟩, key _ _ _ h2, h2⟩
  | errorReply id code text n h1 _ _ => exact ⟨⟨_, _, rfl, ht⟩, key _ _ _ h1, h1⟩
  | reply t id p h1 h2 => exact ⟨⟨_, _, rfl, ht⟩, key _ _ _ h2, h2⟩
  | reply16 pad id p h1 h2 => exact ⟨⟨_, _, rfl, ht⟩, key _ _ _ h1, h1⟩
  | signal t n name p h _ _ | request t n i name p h _ _ _ =>
    simp only [List.mem_cons, List.not_mem_nil, or_false] at h
    exfalso
    rcases h with rfl | rfl <;> revert ht <;> simp
  | _ => exfalso; revert ht; simp

theorem mind_answer {l : List Obs} {b : Bytes} (ha : Answers id t b) (hl : id.length = 8)
    (hk : (mind l).asked.lookup id = some t) :
    mind (l ++ [.got b]) = { asked := (mind l).asked.filter fun p => decide (p.1 ≠ id)
                             session := learned t (mind l).session b } := by
  obtain ⟨v, hg, rfl, hv⟩ := ha hl
  obtain ⟨hr, hi, _⟩ := reply_ident hg (documented_reply hv)
  rw [mind_append]
  simp only [List.foldl_cons, List.foldl_nil, Mind.sees, Mind.gets]
  rw [if_pos hr, hi, hk]

theorem lookup_filter {l : List (Bytes × UInt8)} {a b : Bytes} (h : a ≠ b) :
    (l.filter fun p => decide (p.1 ≠ b)).lookup a = l.lookup a := by
  induction l with
  | nil => rfl
  | cons p l ih =>
    obtain ⟨x, y⟩ := p
    simp only [List.filter_cons]
    by_cases hx : x = b
    · subst hx
      have hax : (a == x) = false := by simpa using h
      simp only [ne_eq, not_true_eq_false, decide_false, Bool.false_eq_true, if_false]
      rw [List.lookup_cons, hax]
      exact ih
    · simp only [ne_eq, hx, not_false_eq_true, decide_true, if_true]
      rw [List.lookup_cons, List.lookup_cons]
      cases (a == x)
      · exact ih
      · rfl

/-! ## What is received follows the protocol -/

theorem follows_nil (A : UInt8 → List UInt8) : Follows A [] := by
  intro pre b post h
  simp at h

theorem follows_snoc {A : UInt8 → List UInt8} {l : List Obs} {x : Obs} (h : Follows A l)
    (hx : ∀ b, x = .got b → ∃ v, Grammar b v ∧ ((l = [] ∧ v.msgType = 23) ∨
      (l ≠ [] ∧ v.msgType ∈ [21, 22, 63, 64, 65]) ∨ (∃ t, (mind l).asked.lookup v.ident = some t ∧ v.msgType ∈ A t))) :
    Follows A (l ++ [x]) := by
  intro pre b post he
  rcases List.eq_nil_or_concat post with rfl | ⟨post', y, rfl⟩
  · obtain ⟨rfl, hb⟩ := List.append_inj' he rfl
    exact hx b (by simpa using hb)
  · rw [List.concat_eq_append] at he
    have he' : l ++ [x] = (pre ++ .got b :: post') ++ [y] := by rw [he]; simp
    obtain ⟨rfl, _⟩ := List.append_inj' he' rfl
    exact h pre b post' rfl

theorem note_grammar {b : Bytes} (hm : ∀ s b, srv.hooks.marshal s = .ok b → b ≠ []) (h : Note srv Readable b) :
    ∃ v, Grammar b v ∧ v.msgType ∈ [21, 22, 63, 64, 65] := by
  cases h with
  | created s bs h => exact ⟨_, Grammar.sessionCreated bs (hm s bs h), by simp⟩
  | closed => exact ⟨_, Grammar.sessionClosed, by simp⟩
  | signal c name enc payload h1 h2 h3 =>
    refine ⟨{ msgType := signalType enc, name := name, payload := payload }, ?_, ?_⟩
    · have := signal_grammar name payload enc true (fun h => (badSignal_iff _ _ _ _).mp h h3) h2 h1
      rw [pad_eq] at this
      simpa [WriterCall.layout, signalType] using this
    · show signalType enc ∈ _
      unfold signalType
      split_ifs <;> simp

theorem follows_notes {A : UInt8 → List UInt8} (hm : ∀ s b, srv.hooks.marshal s = .ok b → b ≠ []) {ns : List Bytes} :
    ∀ {l : List Obs}, Follows A l → (ns ≠ [] → l ≠ []) → (∀ b ∈ ns, Note srv Readable b) →
    Follows A (l ++ ns.map .got) := by
  induction ns with
  | nil => intro l h _ _; simpa using h
  | cons b ns ih =>
    intro l h hne hn
    have e : l ++ (b :: ns).map Obs.got = (l ++ [.got b]) ++ ns.map .got := by simp
    rw [e]
    refine ih (follows_snoc h ?_) (by simp) (fun x hx => hn x (by simp [hx]))
    intro b' hb
    cases hb
    obtain ⟨v, hg, hv⟩ := note_grammar hm (hn b (by simp))
    exact ⟨v, hg, .inr (.inl ⟨hne (by simp), hv⟩)⟩

/-! ## The invariant -/

/-- No two of the queued messages ask for a reply with the same identifier. -/
def Apart (b b' : Bytes) : Prop :=
  ∀ v v', Grammar b v → Grammar b' v' → asksReply v.msgType → asksReply v'.msgType → v.ident ≠ v'.ident

/-- What holds at any time of a server talking to its clients. -/
structure TalkInv (srv : Server Net υ) (cap : Option Nat) (w : World Net υ) (conv : ConnId → List Obs)
    (q : ConnId → List Bytes) : Prop where
  pending : ∀ i, w.net.pending i = []
  greeted : ∀ i, w.net.connected i = true → conv i ≠ []
  told : Roomy srv cap → ∀ i, w.net.connected i = true → Told srv (w.conns i).session (mind (conv i)).session
  queue : ∀ i, ∀ bs ∈ q i, ∀ v, Grammar bs v → asksReply v.msgType →
    (mind (conv i)).asked.lookup v.ident = some v.msgType
  apart : ∀ i, (q i).Pairwise Apart

/-- Additionally, what was received follows the protocol. -/
structure FollowsInv (srv : Server Net υ) (conv : ConnId → List Obs) : Prop where
  all : ∀ i, Follows documentedButSessions (conv i)

theorem heard_eq {w w' : World Net υ} {conv : ConnId → List Obs} {i : ConnId} {l : List Bytes}
    (h : w'.net.out i = w.net.out i ++ l) : heard w w' conv i = conv i ++ l.map .got := by
  unfold heard
  rw [h, List.drop_left]

theorem TalkInv.noted {w w' : World Net υ} {conv : ConnId → List Obs} {q : ConnId → List Bytes}
    (h : TalkInv srv cap w conv q) (hn : Notes srv ok cap w w') : TalkInv srv cap w' (heard w w' conv) q := by
  refine ⟨hn.pending, ?_, ?_, ?_, h.apart⟩
  · intro i hi he
    obtain ⟨ns, h1, _⟩ := hn.out i
    rw [heard_eq h1] at he
    exact h.greeted i (hn.connected i hi) (List.append_eq_nil_iff.mp he).1
  · intro hr i hi
    obtain ⟨ns, h1, h2, _, h4⟩ := hn.out i
    rw [heard_eq h1, mind_notes h2]
    exact h4 hr hi _ (h.told hr i (hn.connected i hi))
  · intro i bs hb v hg ha
    obtain ⟨ns, h1, h2, _, h4⟩ := hn.out i
    rw [heard_eq h1, mind_notes h2]
    exact h.queue i bs hb v hg ha

theorem notedAt_follows {w w' : World Net υ} {conv : ConnId → List Obs} {i : ConnId}
    (hm : ∀ s b, srv.hooks.marshal s = .ok b → b ≠ [])
    (hgr : w.net.connected i = true → conv i ≠ []) (h : Follows documentedButSessions (conv i))
    (hn : NotedAt srv Readable cap w w' i) : Follows documentedButSessions (heard w w' conv i) := by
  obtain ⟨ns, h1, h2, h3, h4⟩ := hn
  rw [heard_eq h1]
  refine follows_notes hm h ?_ h2
  intro hne
  apply hgr
  cases hc : w.net.connected i with
  | true => rfl
  | false => exact absurd (h3 hc) hne

theorem sub_queue {i c : ConnId} {q : ConnId → List Bytes} {bs : Bytes} {rest : List Bytes} (hq : q c = bs :: rest)
    {x : Bytes} (h : x ∈ at_ q c rest i) : x ∈ q i := by
  unfold at_ at h
  split_ifs at h with hi
  · subst hi; rw [hq]; simp [h]
  · exact h

theorem apart_rest {i c : ConnId} {q : ConnId → List Bytes} {bs : Bytes} {rest : List Bytes} (hq : q c = bs :: rest)
    (h : (q i).Pairwise Apart) : (at_ q c rest i).Pairwise Apart := by
  unfold at_
  split_ifs with hi
  · subst hi; rw [hq] at h; exact h.of_cons
  · exact h

theorem TalkInv.popped {w : World Net υ} {conv : ConnId → List Obs} {q : ConnId → List Bytes} {c : ConnId} {bs : Bytes}
    {rest : List Bytes} (h : TalkInv srv cap w conv q) (hq : q c = bs :: rest) : TalkInv srv cap w conv (at_ q c rest) :=
  ⟨h.pending, h.greeted, h.told, fun i x hx v hg ha => h.queue i x (sub_queue hq hx) v hg ha,
    fun i => apart_rest hq (h.apart i)⟩

/-- What the client of `c` knows after a request of it was handled. -/
theorem handled_mind {w w' : World Net υ} {conv : ConnId → List Obs} {c : ConnId}
    (hl : id.length = 8) (hk : (mind (conv c)).asked.lookup id = some t)
    (hh : Handled srv ok cap c id t w w') : ∃ ns r, w'.net.out c = w.net.out c ++ (ns ++ r) ∧
      heard w w' conv c = conv c ++ ns.map .got ++ r.map .got ∧ (∀ b ∈ ns, Note srv ok b) ∧
      (r = [] ∨ ∃ b, r = [b] ∧ Answers id t b) ∧
      (w.net.connected c = false → ns = [] ∧ r = []) ∧
      (Roomy srv cap → w'.net.connected c = true → Told srv (w.conns c).session (mind (conv c)).session →
        Told srv (w'.conns c).session (mind (heard w w' conv c)).session) ∧
      ∀ a, a ≠ id → (mind (heard w w' conv c)).asked.lookup a = (mind (conv c)).asked.lookup a := by
  obtain ⟨ns, r, h1, h2, h3, h4, h5⟩ := hh.here
  rw [List.append_assoc] at h1
  have e : heard w w' conv c = conv c ++ ns.map .got ++ r.map .got := by rw [heard_eq h1]; simp
  refine ⟨ns, r, h1, e, h2, h3, h4, ?_⟩
  have hm := mind_notes (l := conv c) h2
  rcases h3 with rfl | ⟨b, rfl, ha⟩
  · rw [e]
    simp only [List.map_nil, List.append_nil, hm]
    exact ⟨fun hr hc ht => h5 hr hc _ ht, fun _ _ => by trivial⟩
  · have := mind_answer (l := conv c ++ ns.map .got) ha hl (by rw [hm]; exact hk)
    rw [e]
    simp only [List.map_cons, List.map_nil]
    rw [this, hm]
    exact ⟨fun hr hc ht => h5 hr hc _ ht, fun a ha' => lookup_filter ha'⟩

theorem TalkInv.handled {w w' : World Net υ} {conv : ConnId → List Obs} {q : ConnId → List Bytes} {c : ConnId}
    {bs : Bytes} {rest : List Bytes} {v : View} (h : TalkInv srv cap w conv q) (hq : q c = bs :: rest)
    (hg : Grammar bs v) (ha : asksReply v.msgType) (hh : Handled srv ok cap c v.ident v.msgType w w') :
    TalkInv srv cap w' (heard w w' conv) (at_ q c rest) := by
  have hk := h.queue c bs (by rw [hq]; simp) v hg ha
  obtain ⟨ns, r, _, he, _, _, _, ht, hlook⟩ := handled_mind (asks_ident hg ha) hk hh
  refine ⟨hh.pending, ?_, ?_, ?_, fun i => apart_rest hq (h.apart i)⟩
  · intro i hi he'
    have hgr := h.greeted i (hh.connected i hi)
    by_cases hic : i = c
    · subst hic
      rw [he, List.append_assoc] at he'
      exact hgr (List.append_eq_nil_iff.mp he').1
    · obtain ⟨ns, h1, _⟩ := hh.elsewhere i hic
      rw [heard_eq h1] at he'
      exact hgr (List.append_eq_nil_iff.mp he').1
  · intro hr i hi
    have htold := h.told hr i (hh.connected i hi)
    by_cases hic : i = c
    · subst hic
      exact ht hr hi htold
    · obtain ⟨ns, h1, h2, _, h4⟩ := hh.elsewhere i hic
      rw [heard_eq h1, mind_notes h2]
      exact h4 hr hi _ htold
  · intro i x hx v' hg' ha'
    have hold := h.queue i x (sub_queue hq hx) v' hg' ha'
    by_cases hic : i = c
    · subst hic
      rw [hlook]
      · exact hold
      · have hp := h.apart i
        rw [hq] at hp
        have hx' : x ∈ rest := by simpa [at_] using hx
        exact ((List.pairwise_cons.mp hp).1 x hx' v v' hg hg' ha ha').symm
    · obtain ⟨ns, h1, h2, _, h4⟩ := hh.elsewhere i hic
      rw [heard_eq h1, mind_notes h2]
      exact hold

/-- A connection is accepted: either its socket is closed, or it is greeted and then there are notifications. -/
theorem accept_cases {w w' : World Net υ} {c : ConnId} {limit : Int} (hs : srv.sock = netSockets cap)
    (ho : HooksOnly srv.hooks ok) (h0 : ∀ i, w.net.pending i = []) (hconf : srv.configMsg ≠ [])
    (h : handleConnection srv w c limit [] = .ok w') :
    ((∀ i, w'.net.pending i = []) ∧ w'.net.out = w.net.out ∧ w'.conns = w.conns ∧
      ∀ i, w'.net.connected i = if i = c then false else w.net.connected i) ∨
    (∃ w1 : World Net υ, w1.net = w.net.deliver c srv.configMsg ∧ (w1.conns c).session = none ∧
      (∀ i, i ≠ c → w1.conns i = w.conns i) ∧ Notes srv ok cap w1 w') := by
  have conf : ∀ {w1 : World Net υ} {e : Option Err}, writeConfMessage srv w c = .ok (w1, e) →
      w1.conns = w.conns ∧ ((e = none ∧ w1.net = w.net.deliver c srv.configMsg) ∨ (e ≠ none ∧ w1.net = w.net)) := by
    intro w1 e h1
    obtain ⟨h2, _, _, ⟨h3, _, _, _, h4⟩ | ⟨h3, h4, _⟩⟩ := withWriter_parts (V := True) (bs := srv.configMsg) hs (h0 c)
      hconf (fun _ => ⟨[srv.configMsg], rfl, by simp⟩) (fun h => absurd trivial h) h1
    · exact ⟨h2, .inl ⟨h3, h4⟩⟩
    · exact ⟨h2, .inr ⟨h3, h4⟩⟩
  rcases handleConnection_ok h with ⟨w1, e, net, ce, h1, h2, rfl⟩ | ⟨w1, w2, h1, h2, h3⟩
  · obtain ⟨hc, ⟨h3, _⟩ | ⟨_, hn⟩⟩ := conf h1
    · cases h3
    · rw [hs] at h2
      simp only [netSockets, Except.ok.injEq, Prod.mk.injEq] at h2
      rw [hn] at h2
      left
      rw [← h2.1]
      exact ⟨h0, rfl, hc, fun i => rfl⟩
  · obtain ⟨hc, ⟨_, hn⟩ | ⟨h4, _⟩⟩ := conf h1
    · right
      simp only [serve, Except.ok.injEq] at h3
      subst h3
      refine ⟨{ accepted w1 c limit with user := (srv.hooks.onClientConnected w1.user c).1 }, hn, ?_, ?_, ?_⟩
      · simp [accepted, World.upd, World.log]
      · intro i hi
        simp [accepted, World.upd, World.log, hi, hc]
      · refine runApis_notes hs ?_ (ho.connected _ _) h2
        intro i
        show w1.net.pending i = []
        rw [hn]
        exact deliver_pending h0 c _ i
    · exact absurd rfl h4

theorem heard_comp {w w1 w' : World Net υ} {conv : ConnId → List Obs} {i : ConnId} {l l' : List Bytes}
    (h : w1.net.out i = w.net.out i ++ l) (h' : w'.net.out i = w1.net.out i ++ l') :
    heard w w' conv i = heard w1 w' (heard w w1 conv) i := by
  rw [heard_eq (l := l ++ l') (by rw [h', h, List.append_assoc]), heard_eq h', heard_eq h]
  simp

theorem at_same {α : Type} (f : ConnId → α) (c : ConnId) (a : α) : at_ f c a c = a := by simp [at_]
theorem at_other {α : Type} (f : ConnId → α) {c i : ConnId} (a : α) (h : i ≠ c) : at_ f c a i = f i := by simp [at_, h]

/-- Everything holds of a server talking to its clients. -/
theorem talk_inv {w : World Net υ} {conv : ConnId → List Obs} {q : ConnId → List Bytes}
    (hs : srv.sock = netSockets cap) (ho : HooksOnly srv.hooks ok)
    (hcl : ∀ u i m, (srv.hooks.onRequest u i m).2.closesMsg = false)
    (hconf : ∃ v, Grammar srv.configMsg v ∧ v.msgType = 23)
    (h : Talk srv ok w conv q) : TalkInv srv cap w conv q ∧
      (ok = Readable → (∀ s b, srv.hooks.marshal s = .ok b → b ≠ []) → ∀ i, Follows documentedButSessions (conv i)) := by
  induction h with
  | start w hw h1 h2 h3 =>
    refine ⟨⟨h2, ?_, ?_, ?_, ?_⟩, fun _ _ i => follows_nil _⟩
    · intro i hi; rw [h3] at hi; cases hi
    · intro _ i hi; rw [h3] at hi; cases hi
    · intro i bs hb; simp at hb
    · intro i; simp
  | send w conv q c bs v _ hne hg hfresh ih =>
    obtain ⟨ih, ihf⟩ := ih
    have hmind : ∀ i, (mind (at_ conv c (conv c ++ [.sent v]) i)).session = (mind (conv i)).session := by
      intro i
      by_cases hi : i = c
      · subst hi
        rw [at_same, mind_append]
        simp only [List.foldl_cons, List.foldl_nil, Mind.sees]
        split_ifs <;> rfl
      · rw [at_other _ _ hi]
    have hold : ∀ i a t, (mind (conv i)).asked.lookup a = some t →
        (mind (at_ conv c (conv c ++ [.sent v]) i)).asked.lookup a = some t := by
      intro i a t h
      by_cases hi : i = c
      · subst hi
        rw [at_same, mind_append]
        simp only [List.foldl_cons, List.foldl_nil, Mind.sees]
        split_ifs with ha
        · rw [List.lookup_cons]
          have : (a == v.ident) = false := by
            rw [beq_eq_false_iff_ne]
            rintro rfl
            rw [hfresh ha] at h; cases h
          simp only [this]; exact h
        · exact h
      · rw [at_other _ _ hi]; exact h
    refine ⟨⟨ih.pending, ?_, ?_, ?_, ?_⟩, ?_⟩
    · intro i hi
      by_cases hic : i = c
      · subst hic; rw [at_same]; simp
      · rw [at_other _ _ hic]; exact ih.greeted i hi
    · intro hr i hi
      rw [hmind]; exact ih.told hr i hi
    · intro i x hx v' hg' ha'
      by_cases hic : i = c
      · subst hic
        rw [at_same] at hx
        rcases List.mem_append.mp hx with hx | hx
        · exact hold i _ _ (ih.queue i x hx v' hg' ha')
        · simp only [List.mem_singleton] at hx
          subst hx
          have := grammar_unique hg hg'
          subst this
          rw [at_same, mind_append]
          simp only [List.foldl_cons, List.foldl_nil, Mind.sees, if_pos ha']
          rw [List.lookup_cons]; simp
      · rw [at_other _ _ hic] at hx ⊢
        exact ih.queue i x hx v' hg' ha'
    · intro i
      by_cases hic : i = c
      · subst hic
        rw [at_same, List.pairwise_append]
        refine ⟨ih.apart i, by simp, ?_⟩
        intro x hx y hy v1 v2 h1 h2 a1 a2
        simp only [List.mem_singleton] at hy
        subst hy
        have := grammar_unique hg h2
        subst this
        intro he
        have := ih.queue i x hx v1 h1 a1
        rw [he, hfresh a2] at this
        cases this
      · rw [at_other _ _ hic]; exact ih.apart i
    · intro e hm i
      by_cases hic : i = c
      · subst hic
        rw [at_same]
        exact follows_snoc (ihf e hm i) (fun b hb => by cases hb)
      · rw [at_other _ _ hic]; exact ihf e hm i
  | junk w conv q c bs _ hbad ih =>
    obtain ⟨ih, ihf⟩ := ih
    refine ⟨⟨ih.pending, ih.greeted, ih.told, ?_, ?_⟩, ihf⟩
    · intro i x hx v' hg' ha'
      by_cases hic : i = c
      · subst hic
        rw [at_same] at hx
        rcases List.mem_append.mp hx with hx | hx
        · exact ih.queue i x hx v' hg' ha'
        · simp only [List.mem_singleton] at hx
          subst hx
          exact absurd ⟨v', hg'⟩ hbad
      · rw [at_other _ _ hic] at hx
        exact ih.queue i x hx v' hg' ha'
    · intro i
      by_cases hic : i = c
      · subst hic
        rw [at_same, List.pairwise_append]
        refine ⟨ih.apart i, by simp, ?_⟩
        intro x hx y hy v1 v2 h1 h2 a1 a2
        simp only [List.mem_singleton] at hy
        subst hy
        exact absurd ⟨v2, h2⟩ hbad
      · rw [at_other _ _ hic]; exact ih.apart i
  | handle w w' conv q c bs rest _ hq h ih =>
    obtain ⟨ih, ihf⟩ := ih
    rcases serve_data_handled hs ho ih.pending hcl h with ⟨v, hg, ha, hh⟩ | hn
    · refine ⟨ih.handled hq hg ha hh, ?_⟩
      intro e hm i
      subst e
      by_cases hic : i = c
      · subst hic
        have hk := ih.queue i bs (by rw [hq]; simp) v hg ha
        obtain ⟨ns, r, _, he, h2, h3, h4, _⟩ := handled_mind (asks_ident hg ha) hk hh
        rw [he]
        have hf := follows_notes hm (ns := ns) (ihf rfl hm i) (fun hne => ih.greeted i (by
          cases hc : w.net.connected i with
          | true => rfl
          | false => exact absurd (h4 hc).1 hne)) h2
        rcases h3 with rfl | ⟨b, rfl, hans⟩
        · simpa using hf
        · refine follows_snoc hf ?_
          intro b' hb
          cases hb
          obtain ⟨v', hg', hi', ht'⟩ := hans (asks_ident hg ha)
          refine ⟨v', hg', .inr (.inr ⟨v.msgType, ?_, ht'⟩)⟩
          rw [mind_notes h2, hi']; exact hk
      · exact notedAt_follows hm (ih.greeted i) (ihf rfl hm i) (hh.elsewhere i hic)
    · refine ⟨(ih.popped hq).noted hn, ?_⟩
      intro e hm i
      subst e
      exact notedAt_follows hm (ih.greeted i) (ihf rfl hm i) (hn.out i)
  | accept w w' conv q c limit _ hnew hfresh h ih =>
    obtain ⟨ih, ihf⟩ := ih
    obtain ⟨cv, hcg, hct⟩ := hconf
    have hoff : w.net.connected c = false := by
      cases hc : w.net.connected c with
      | false => rfl
      | true => exact absurd hnew (ih.greeted c hc)
    rcases accept_cases hs ho (w := plugged w c) ih.pending (grammar_ne_nil hcg) h with
      ⟨h1, h2, h3, h4⟩ | ⟨w1, h1, h2, h3, hn⟩
    · have hh : ∀ i, heard w w' conv i = conv i := by
        intro i
        have : w'.net.out i = w.net.out i ++ [] := by rw [h2]; simp [plugged]
        rw [heard_eq this]; simp
      have hcon : ∀ i, w'.net.connected i = true → w.net.connected i = true := by
        intro i hi
        rw [h4] at hi
        split_ifs at hi with hic
        simpa [plugged, at_, hic] using hi
      refine ⟨⟨h1, ?_, ?_, ?_, ih.apart⟩, ?_⟩
      · intro i hi; rw [hh]; exact ih.greeted i (hcon i hi)
      · intro hr i hi; rw [hh, h3]; exact ih.told hr i (hcon i hi)
      · intro i; rw [hh]; exact ih.queue i
      · intro e hm i; rw [hh]; exact ihf e hm i
    · have hout : ∀ i, w1.net.out i = w.net.out i ++ if i = c then [srv.configMsg] else [] := by
        intro i; rw [h1, deliver_out]; rfl
      have hcon : ∀ i, i ≠ c → w1.net.connected i = w.net.connected i := by
        intro i hi; rw [h1]; simp [Net.deliver, plugged, at_, hi]
      have hwho : ∀ i, heard w w1 conv i = if i = c then [.got srv.configMsg] else conv i := by
        intro i
        rw [heard_eq (hout i)]
        split_ifs with hi
        · subst hi; rw [hnew]; rfl
        · simp
      have hm1 : mind [.got srv.configMsg] = {} := by
        unfold mind
        simp only [List.foldl_cons, List.foldl_nil, Mind.sees, Mind.gets]
        have hb := byteAt_of_grammar hcg
        rw [hct] at hb
        cases hcm : srv.configMsg with
        | nil => exact absurd hcm (grammar_ne_nil hcg)
        | cons x r =>
          rw [hcm] at hb
          have : x = 23 := by simpa [byteAt] using hb
          subst this
          rw [if_neg]
          · simp [noted]
          · rintro ⟨t, r', he, ht⟩
            cases he
            revert ht; decide
      have i1 : TalkInv srv cap w1 (heard w w1 conv) q := by
        refine ⟨?_, ?_, ?_, ?_, ih.apart⟩
        · rw [h1]; exact fun i => deliver_pending (n := (plugged w c).net) ih.pending c srv.configMsg i
        · intro i hi
          rw [hwho]
          split_ifs with hic
          · simp
          · rw [hcon i hic] at hi; exact ih.greeted i hi
        · intro hr i hi
          rw [hwho]
          split_ifs with hic
          · subst hic
            rw [h2, hm1]; trivial
          · rw [hcon i hic] at hi
            rw [h3 i hic]; exact ih.told hr i hi
        · intro i bs hb v hg ha
          have := ih.queue i bs hb v hg ha
          rw [hwho]
          split_ifs with hic
          · subst hic
            rw [hnew] at this
            simp [mind] at this
          · exact this
      have he : heard w w' conv = heard w1 w' (heard w w1 conv) := by
        funext i
        obtain ⟨ns, hns, _⟩ := hn.out i
        exact heard_comp (hout i) hns
      rw [he]
      refine ⟨i1.noted hn, ?_⟩
      intro e hm i
      subst e
      refine notedAt_follows hm (i1.greeted i) ?_ (hn.out i)
      rw [hwho]
      split_ifs with hic
      · refine follows_snoc (l := []) (follows_nil _) ?_
        intro b hb
        cases hb
        exact ⟨cv, hcg, .inl ⟨rfl, hct⟩⟩
      · exact ihf rfl hm i
  | lost w w' conv q c e _ h ih =>
    obtain ⟨ih, ihf⟩ := ih
    have hn := disconnect_notes hs ho ih.pending (show disconnect srv w c = Except.ok w' from h)
    refine ⟨ih.noted hn, ?_⟩
    intro e hm i
    subst e
    exact notedAt_follows hm (ih.greeted i) (ihf rfl hm i) (hn.out i)
  | api w w' conv q a _ hok h ih =>
    obtain ⟨ih, ihf⟩ := ih
    have hn := runApi_notes hs ih.pending hok h
    refine ⟨ih.noted hn, ?_⟩
    intro e hm i
    subst e
    exact notedAt_follows hm (ih.greeted i) (ihf rfl hm i) (hn.out i)
  | hangup w conv q c _ ih =>
    obtain ⟨ih, ihf⟩ := ih
    have hcon : ∀ i, (unplugged w c).net.connected i = true → w.net.connected i = true := by
      intro i hi
      simp only [unplugged, at_] at hi
      split_ifs at hi with hic
      exact hi
    exact ⟨⟨ih.pending, fun i hi => ih.greeted i (hcon i hi), fun hr i hi => ih.told hr i (hcon i hi), ih.queue,
      ih.apart⟩, ihf⟩
  | shutdown w conv q _ ih =>
    obtain ⟨ih, ihf⟩ := ih
    exact ⟨⟨ih.pending, ih.greeted, ih.told, ih.queue, ih.apart⟩, ihf⟩

end Webwire
